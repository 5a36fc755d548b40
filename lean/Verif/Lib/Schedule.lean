import Verif.Lib.Task
/-! Commutation of independent tasks. -/
namespace NNTile
variable {α : Type _}

/-- Two tasks conflict if one of them writes a handle that the other one accesses. -/
def Conflict (t u : Task α) : Prop :=
  (∃ h ∈ t.outs, h ∈ u.outs ∨ h ∈ u.reads) ∨ (∃ h ∈ u.outs, h ∈ t.reads)

theorem setAll_not_mem (s : Store α) {hs : List Handle} {bs : List (Buf α)} {k : Handle} (h : k ∉ hs) : s.setAll hs bs k = s k := by
  induction hs generalizing bs with
  | nil => cases bs <;> rfl
  | cons a hs ih => cases bs with
    | nil => rfl
    | cons b bs =>
      simp only [List.mem_cons, not_or] at h
      simp only [Store.setAll, if_neg h.1, ih h.2]

theorem setAll_eq (s s' : Store α) {hs : List Handle} {bs : List (Buf α)} {k : Handle} (h : s k = s' k) :
    s.setAll hs bs k = s'.setAll hs bs k := by
  induction hs generalizing bs with
  | nil => cases bs <;> exact h
  | cons a hs ih => cases bs with
    | nil => exact h
    | cons b bs => simp only [Store.setAll, ih]

theorem view_congr {s s' : Store α} {a : Handle × WMode} (h : s' a.1 = s a.1) : s'.view a = s.view a := by
  simp only [Store.view, h]

/-- Independent tasks commute. -/
theorem exec_comm {t u : Task α} {s s1 s2 : Store α} (hc : ¬ Conflict t u) (h1 : t.exec s = .ok s1) (h2 : u.exec s1 = .ok s2) :
    ∃ s3, u.exec s = .ok s3 ∧ t.exec s3 = .ok s2 := by
  simp only [Conflict, not_or, not_exists, not_and] at hc
  obtain ⟨hc1, hc2⟩ := hc
  simp only [Task.exec] at h1 h2
  split at h1
  · cases h1
  · rename_i ha
    split at h2
    · cases h2
    · rename_i hb
      rw [M.bind_eq_ok] at h1 h2
      obtain ⟨o1, ho1, e1⟩ := h1
      obtain ⟨o2, ho2, e2⟩ := h2
      simp only [Except.ok.injEq] at e1 e2
      subst e1
      have r1 : u.reads.map (s.setAll t.outs o1) = u.reads.map s :=
        List.map_congr_left (fun k hk => setAll_not_mem s (fun hm => (hc1 k hm).2 hk))
      have r2 : u.writes.map (s.setAll t.outs o1).view = u.writes.map s.view :=
        List.map_congr_left (fun k hk => view_congr (setAll_not_mem s (fun hm => (hc1 k.1 hm).1 (List.mem_map_of_mem hk))))
      rw [r1, r2] at ho2
      refine ⟨s.setAll u.outs o2, ?_, ?_⟩
      · simp only [Task.exec]
        rw [if_neg hb, ho2]; rfl
      · simp only [Task.exec]
        have r3 : t.reads.map (s.setAll u.outs o2) = t.reads.map s :=
          List.map_congr_left (fun k hk => setAll_not_mem s (fun hm => hc2 k hm hk))
        have r4 : t.writes.map (s.setAll u.outs o2).view = t.writes.map s.view :=
          List.map_congr_left (fun k hk => view_congr (setAll_not_mem s (fun hm => (hc1 k.1 (List.mem_map_of_mem hk)).1 hm)))
        rw [if_neg ha, r3, r4, ho1, M.bind_ok, ← e2]
        congr 1
        funext k
        by_cases hk : k ∈ t.outs
        · have hku : k ∉ u.outs := (hc1 k hk).1
          rw [setAll_not_mem _ hku]
          exact setAll_eq _ _ (setAll_not_mem _ hku)
        · rw [setAll_not_mem _ hk]
          exact setAll_eq _ _ (setAll_not_mem _ hk).symm

theorem runAll_append (l l' : List (Task α)) (s : Store α) : runAll (l ++ l') s = runAll l s >>= runAll l' := by
  induction l generalizing s with
  | nil => rfl
  | cons t l ih =>
    simp only [List.cons_append, runAll]
    cases t.exec s with
    | error e => rfl
    | ok s1 => exact ih s1

/-- A task may be delayed past tasks it does not conflict with. -/
theorem runAll_delay {t : Task α} {l l' : List (Task α)} {s s' : Store α} (hc : ∀ u ∈ l, ¬ Conflict t u)
    (h : runAll (t :: (l ++ l')) s = .ok s') : runAll (l ++ t :: l') s = .ok s' := by
  induction l generalizing s with
  | nil => exact h
  | cons u l ih =>
    simp only [List.cons_append, runAll] at h ⊢
    rw [M.bind_eq_ok] at h
    obtain ⟨s1, h1, h⟩ := h
    rw [M.bind_eq_ok] at h
    obtain ⟨s2, h2, h⟩ := h
    obtain ⟨s3, h3, h4⟩ := exec_comm (hc u (by simp)) h1 h2
    rw [h3, M.bind_ok]
    apply ih (fun v hv => hc v (by simp [hv]))
    simp only [runAll, h4, M.bind_ok]
    exact h

/-- Schedules of labelled tasks. -/
theorem runAll_schedule {ι : Type _} [DecidableEq ι] (task : ι → Task α) {ts us : List ι} (hnd : ts.Nodup) (hp : us.Perm ts)
    (hord : ∀ i j, [i, j].Sublist ts → Conflict (task i) (task j) → [i, j].Sublist us) {s s' : Store α}
    (h : runAll (ts.map task) s = .ok s') : runAll (us.map task) s = .ok s' := by
  induction ts generalizing us s with
  | nil =>
    have : us = [] := List.Perm.eq_nil hp
    subst this; exact h
  | cons i ts ih =>
    have hi : i ∈ us := hp.symm.subset (by simp)
    obtain ⟨us1, us2, rfl⟩ := List.append_of_mem hi
    have hnd' : (us1 ++ i :: us2).Nodup := hp.symm.nodup hnd
    have hp' : (us1 ++ us2).Perm ts := by
      have := hp.symm.trans (List.perm_middle (l₁ := us1) (a := i) (l₂ := us2))
      exact ((List.perm_cons i).1 this).symm
    rw [List.map_append, List.map_cons]
    apply runAll_delay
    · intro u hu hc
      simp only [List.mem_map] at hu
      obtain ⟨j, hj, rfl⟩ := hu
      have hjt : j ∈ ts := hp'.subset (by simp [hj])
      have hsub := hord i j (by simpa using hjt) hc
      -- `i` before `j` in `us1 ++ i :: us2` although `j ∈ us1`
      have hij : i ∉ us1 := fun hm => by
        rw [List.nodup_append] at hnd'
        exact hnd'.2.2 i hm i (by simp) rfl
      have hj2 : j ∉ i :: us2 := fun hm => by
        rw [List.nodup_append] at hnd'
        exact hnd'.2.2 j hj j hm rfl
      obtain ⟨l1, l2, he, hs1, hs2⟩ := List.sublist_append_iff.1 hsub
      cases l1 with
      | nil =>
        simp only [List.nil_append] at he
        subst he
        exact hj2 (hs2.subset (by simp))
      | cons a l1 =>
        simp only [List.cons_append, List.cons.injEq] at he
        obtain ⟨rfl, -⟩ := he
        exact hij (hs1.subset (by simp))
    · simp only [List.map_cons, runAll] at h ⊢
      rw [M.bind_eq_ok] at h
      obtain ⟨s1, h1, h⟩ := h
      rw [h1, M.bind_ok, ← List.map_append]
      apply ih (List.nodup_cons.1 hnd).2 hp' _ h
      intro a b hab hc
      have h3 := hord a b (List.Sublist.trans hab (List.sublist_cons_self i ts)) hc
      have ha : a ≠ i := by
        rintro rfl
        exact (List.nodup_cons.1 hnd).1 (hab.subset (by simp))
      have hb : b ≠ i := by
        rintro rfl
        exact (List.nodup_cons.1 hnd).1 (hab.subset (by simp))
      -- removing `i` keeps the sublist
      have h4 := List.Sublist.filter (fun x => decide (x ≠ i)) h3
      have hnd2 := hnd'
      rw [List.nodup_append] at hnd2
      have hi1 : ∀ x ∈ us1, decide (x ≠ i) = true := by
        intro x hx; simpa using fun hxi : x = i => hnd2.2.2 x hx i (by simp) hxi
      have hi2 : ∀ x ∈ us2, decide (x ≠ i) = true := by
        intro x hx
        have := (List.nodup_cons.1 hnd2.2.1).1
        simp only [decide_eq_true_eq]
        rintro rfl
        exact this hx
      have e5 : (us1 ++ i :: us2).filter (fun x => decide (x ≠ i)) = us1 ++ us2 := by
        rw [List.filter_append, List.filter_eq_self.2 hi1, List.filter_cons_of_neg (by simp), List.filter_eq_self.2 hi2]
      have e6 : [a, b].filter (fun x => decide (x ≠ i)) = [a, b] := by simp [ha, hb]
      rw [e5, e6] at h4
      exact h4

end NNTile
