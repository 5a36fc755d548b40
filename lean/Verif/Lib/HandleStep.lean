import Verif.Lib.Handle
/-!
# Handles: every operation keeps the invariant
-/
namespace NNTile.Handle

/-- The invariant of every history. -/
structure Inv (w : World) : Prop where
  life : Life w
  counts : Counts w

theorem Inv.init : Inv World.init := ⟨⟨fun _ => .inl ⟨rfl, rfl⟩, fun _ _ => rfl⟩, fun _ => rfl⟩

theorem Inv.handle {w : World} (h : Inv w) {i d : Nat} (hi : w.dataOf i = some (some d)) : 0 < w.use d := by
  rw [h.counts d]
  exact handle_owner hi

theorem Inv.local {w : World} (h : Inv w) {j d : Nat} {l : LocalData} (hj : w.localOf j = some l) (hl : l.data = some d) : 0 < w.use d := by
  rw [h.counts d]
  exact local_owner hj hl

theorem data_live (o : Option Nat) : (Var.live o).data = o := rfl
theorem localData_some (l : LocalData) : localData (some l) = l.data := rfl
theorem localData_none : localData none = none := rfl

theorem owners_eq (w : World) (d : Nat) : w.owners d = w.handles.countP (fun v => v.data == some d) + w.locals.countP (fun l => localData l == some d) := rfl

theorem countP_snoc {α : Type} {p : α → Bool} {l : List α} {a : α} : (l ++ [a]).countP p = l.countP p + one (p a) := by
  simp [List.countP_append, List.countP_singleton, one]

theorem Inv.newHandle {w w' : World} (h : Inv w) {size : Nat} {mode : Mode} (he : w.newHandle size mode = .ok w' ∨ w.newHandle size mode = .raised w') : Inv w' := by
  unfold World.newHandle at he
  by_cases c : size = 0
  · rw [if_pos c] at he
    rcases he with he | he <;> cases he
    exact h
  · rw [if_neg c] at he
    have hz : w.use w.next = 0 := by
      by_contra hc
      exact absurd (h.life.lt (d := w.next) (by omega)) (by omega)
    cases e : deleter mode with
    | none =>
      simp only [e] at he
      rcases he with he | he <;> cases he
      refine ⟨⟨fun d => ?_, fun d hd => ?_⟩, h.counts⟩
      · dsimp only
        by_cases c : d = w.next
        · subst c
          refine .inr (.inr (.inr ⟨?_, hz⟩))
          have : mode = .other := by cases mode <;> simp [deleter] at e ⊢
          rw [filter_add_same (d := w.next) (by rfl), h.life.2 w.next (Nat.le_refl _), this]
          rfl
        · rw [LifeOf, filter_add (Ne.symm c)]
          exact h.life.1 d
      · dsimp only at hd ⊢
        rw [filter_add (by change w.next ≠ d; omega)]
        exact h.life.2 d (by omega)
    | some k =>
      simp only [e] at he
      rcases he with he | he <;> cases he
      refine ⟨⟨fun d => ?_, fun d hd => ?_⟩, fun d => ?_⟩
      · dsimp only
        by_cases c : d = w.next
        · subst c
          refine .inr (.inl ⟨mode, [], ?_, by simp, ?_, ?_⟩)
          · rw [filter_add_same (d := w.next) (by rfl), h.life.2 w.next (Nat.le_refl _)]
            rfl
          · rw [Function.update_self, e]
          · rw [Function.update_self]
            omega
        · rw [LifeOf, filter_add (Ne.symm c), Function.update_of_ne c, Function.update_of_ne c]
          exact h.life.1 d
      · dsimp only at hd ⊢
        rw [filter_add (by change w.next ≠ d; omega)]
        exact h.life.2 d (by omega)
      · have hc := h.counts d
        rw [owners_eq] at hc ⊢
        dsimp only
        rw [countP_snoc]
        by_cases c : d = w.next
        · subst c
          rw [Function.update_self]
          simp only [data_live, beq_self_eq_true, one, if_true]
          omega
        · rw [Function.update_of_ne c]
          simp only [data_live, Option.some_beq_some, beq_iff_eq, one, Ne.symm c, if_false]
          omega

theorem Inv.nullHandle {w : World} (h : Inv w) : Inv { w with handles := w.handles ++ [.live none] } := by
  refine ⟨h.life, fun d => ?_⟩
  have hc := h.counts d
  rw [owners_eq] at hc ⊢
  dsimp only
  rw [countP_snoc]
  simp only [data_live, one, Option.none_beq_some, Bool.false_eq_true, if_false]
  omega

theorem retain_handles (w : World) (o : Option Nat) : (w.retain o).handles = w.handles := by cases o <;> rfl
theorem retain_locals (w : World) (o : Option Nat) : (w.retain o).locals = w.locals := by cases o <;> rfl
theorem retain_held (w : World) (o : Option Nat) : (w.retain o).held = w.held := by cases o <;> rfl
theorem retain_next (w : World) (o : Option Nat) : (w.retain o).next = w.next := by cases o <;> rfl
theorem retain_del (w : World) (o : Option Nat) : (w.retain o).del = w.del := by cases o <;> rfl
theorem retain_log (w : World) (o : Option Nat) : (w.retain o).log = w.log := by cases o <;> rfl

theorem Inv.copyHandle {w : World} (h : Inv w) {i : Nat} {o : Option Nat} (hi : w.dataOf i = some o) :
    Inv { w.retain o with handles := (w.retain o).handles ++ [.live o] } := by
  refine ⟨(h.life.retain (o := o) fun d hd => h.handle (by rw [hi, hd])).congr rfl rfl rfl rfl, fun d => ?_⟩
  have hc := h.counts d
  rw [owners_eq] at hc ⊢
  dsimp only
  rw [countP_snoc, retain_use, retain_handles, retain_locals]
  simp only [data_live]
  omega

/-- The state before a shared pointer ends, after the object which held it was overwritten. -/
structure Settled (w : World) (o : Option Nat) : Prop where
  life : Life w
  counts : ∀ d, w.use d = w.owners d + one (o == some d)

theorem Settled.drop {w w' : World} {o : Option Nat} (h : Settled w o) (he : w.drop o = .ok w') : Inv w' := by
  refine ⟨h.life.drop' he, fun d => ?_⟩
  obtain ⟨c1, c2, -, -, -, c6⟩ := drop_ok he
  have h1 := c6 d
  have h2 := h.counts d
  rw [owners_eq] at h2 ⊢
  rw [c1, c2]
  omega

theorem Inv.assignHandle {w : World} (h : Inv w) {i j : Nat} {old new : Option Nat} (hi : w.dataOf i = some old) (hj : w.dataOf j = some new) :
    Settled { w.retain new with handles := (w.retain new).handles.set i (.live new) } old := by
  refine ⟨?_, fun d => ?_⟩
  · exact ((h.life.retain (o := new) fun d hd => h.handle (by rw [hj, hd])).congr rfl rfl rfl rfl)
  have hc := h.counts d
  rw [owners_eq] at hc ⊢
  dsimp only
  have hs := countP_set_one (p := fun v : Var => v.data == some d) (a := .live new) (handle_of hi)
  rw [retain_use, retain_handles, retain_locals]
  simp only [data_live] at hs ⊢
  omega

theorem Inv.resetHandle {w : World} (h : Inv w) {i : Nat} {old : Option Nat} {v : Var} (hv : v.data = none) (hi : w.dataOf i = some old) :
    Settled { w with handles := w.handles.set i v } old := by
  refine ⟨?_, fun d => ?_⟩
  · exact (h.life.congr rfl rfl rfl rfl)
  have hc := h.counts d
  rw [owners_eq] at hc ⊢
  dsimp only
  have hs := countP_set_one (p := fun v : Var => v.data == some d) (a := v) (handle_of hi)
  simp only [data_live] at hs hv ⊢
  rw [hv] at hs
  simp only [one, Option.none_beq_some, Bool.false_eq_true, if_false] at hs ⊢
  omega

theorem Inv.retained {w : World} (h : Inv w) {i : Nat} {o : Option Nat} (hi : w.dataOf i = some o) : Settled (w.retain o) o := by
  refine ⟨h.life.retain fun d hd => h.handle (by rw [hi, hd]), fun d => ?_⟩
  have hc := h.counts d
  rw [owners_eq] at hc ⊢
  rw [retain_use, retain_handles, retain_locals]
  omega

theorem starpuAcquire_ok {w w' : World} {o : Option Nat} {mode : Mode} {fails : Bool} (h : w.starpuAcquire o mode fails = .ok w') :
    ∃ d, o = some d ∧ fails = false ∧ ¬ w.blocks d mode ∧ w' = { w with held := (d, mode) :: w.held, log := w.log ++ [.acquire d mode] } := by
  unfold World.starpuAcquire at h
  cases o with
  | none => cases h
  | some d =>
    cases fails with
    | true => cases h
    | false =>
      dsimp only at h
      rw [if_neg (by simp)] at h
      by_cases c : w.blocks d mode
      · rw [if_pos c] at h
        cases h
      · rw [if_neg c] at h
        cases h
        exact ⟨d, rfl, rfl, c, rfl⟩

theorem starpuAcquire_raised {w w' : World} {o : Option Nat} {mode : Mode} {fails : Bool} (h : w.starpuAcquire o mode fails = .raised w') : w' = w ∧ fails = true := by
  unfold World.starpuAcquire at h
  cases o with
  | none => cases h
  | some d =>
    cases fails with
    | true =>
      cases h
      exact ⟨rfl, rfl⟩
    | false =>
      dsimp only at h
      rw [if_neg (by simp)] at h
      by_cases c : w.blocks d mode
      · rw [if_pos c] at h
        cases h
      · rw [if_neg c] at h
        cases h

theorem starpuRelease_ok {w w' : World} {o : Option Nat} (h : w.starpuRelease o = .ok w') :
    ∃ d, o = some d ∧ d ∈ w.held.map Prod.fst ∧ w' = { w with held := w.held.eraseP (fun p => p.1 == d), log := w.log ++ [.release d] } := by
  unfold World.starpuRelease at h
  cases o with
  | none => cases h
  | some d =>
    dsimp only at h
    by_cases c : d ∈ w.held.map Prod.fst
    · rw [if_pos c] at h
      cases h
      exact ⟨d, rfl, c, rfl⟩
    · rw [if_neg c] at h
      cases h

theorem starpuRelease_not_raised {w w' : World} {o : Option Nat} : w.starpuRelease o ≠ .raised w' := by
  intro h
  unfold World.starpuRelease at h
  split at h
  · cases h
  · split_ifs at h

theorem Inv.acquireHandle {w w' : World} (h : Inv w) {i : Nat} {mode : Mode} {fails : Bool} (he : w.acquireHandle i mode fails = .ok w' ∨ w.acquireHandle i mode fails = .raised w') : Inv w' := by
  unfold World.acquireHandle at he
  cases hi : w.dataOf i with
  | none =>
    simp only [hi] at he
    rcases he with he | he <;> cases he
  | some o =>
    simp only [hi] at he
    have hr : Life (w.retain o) := h.life.retain fun d hd => h.handle (by rw [hi, hd])
    cases e : (w.retain o).starpuAcquire o mode fails with
    | ok w1 =>
      simp only [e] at he
      rcases he with he | he <;> cases he
      obtain ⟨d, rfl, -, -, rfl⟩ := starpuAcquire_ok e
      refine ⟨hr.use_event (e := .acquire d mode) rfl ?_ rfl rfl rfl rfl, fun d' => ?_⟩
      · change 0 < (w.retain (some d)).use d
        rw [retain_use]
        have := h.handle hi
        omega
      · have hc := h.counts d'
        rw [owners_eq] at hc ⊢
        dsimp only
        rw [countP_snoc, retain_use, retain_handles, retain_locals]
        simp only [localData_some]
        omega
    | raised w1 =>
      simp only [e] at he
      obtain ⟨rfl, -⟩ := starpuAcquire_raised e
      cases e2 : (w.retain o).drop o with
      | ok w2 =>
        rw [e2] at he
        rcases he with he | he <;> cases he
        exact (h.retained hi).drop e2
      | raised w2 => exact absurd e2 drop_not_raised
      | ub => rw [e2] at he; rcases he with he | he <;> cases he
      | stuck => rw [e2] at he; rcases he with he | he <;> cases he
    | ub => simp only [e] at he; rcases he with he | he <;> cases he
    | stuck => simp only [e] at he; rcases he with he | he <;> cases he

theorem Inv.setLocal {w : World} (h : Inv w) {j : Nat} {l l' : LocalData} (hj : w.locals[j]? = some (some l)) (hd : l'.data = l.data) : Inv { w with locals := w.locals.set j (some l') } := by
  refine ⟨h.life.congr rfl rfl rfl rfl, fun d => ?_⟩
  have hc := h.counts d
  rw [owners_eq] at hc ⊢
  dsimp only
  have hs := countP_set_one (p := fun l => localData l == some d) (a := some l') hj
  simp only [localData_some, hd] at hs
  omega

theorem Inv.localAcquire {w w' : World} (h : Inv w) {j : Nat} {mode : Mode} {fails : Bool} (he : w.localAcquire j mode fails = .ok w' ∨ w.localAcquire j mode fails = .raised w') : Inv w' := by
  unfold World.localAcquire at he
  cases hj : w.localOf j with
  | none =>
    simp only [hj] at he
    rcases he with he | he <;> cases he
  | some l =>
    simp only [hj] at he
    cases e : w.starpuAcquire l.data mode fails with
    | ok w1 =>
      rw [e] at he
      rcases he with he | he <;> cases he
      obtain ⟨d, hd, -, -, rfl⟩ := starpuAcquire_ok e
      have h1 : Inv { w with held := (d, mode) :: w.held, log := w.log ++ [.acquire d mode] } :=
        ⟨h.life.use_event (e := .acquire d mode) rfl (h.local hj hd) rfl rfl rfl rfl, h.counts⟩
      exact h1.setLocal (l := l) (local_of hj) rfl
    | raised w1 =>
      rw [e] at he
      obtain ⟨rfl, -⟩ := starpuAcquire_raised e
      rcases he with he | he <;> cases he
      exact h
    | ub => rw [e] at he; rcases he with he | he <;> cases he
    | stuck => rw [e] at he; rcases he with he | he <;> cases he

theorem Inv.localRelease {w w' : World} (h : Inv w) {j : Nat} (he : w.localRelease j = .ok w' ∨ w.localRelease j = .raised w') : Inv w' := by
  unfold World.localRelease at he
  cases hj : w.localOf j with
  | none =>
    simp only [hj] at he
    rcases he with he | he <;> cases he
  | some l =>
    simp only [hj] at he
    cases e : w.starpuRelease l.data with
    | ok w1 =>
      rw [e] at he
      rcases he with he | he <;> cases he
      obtain ⟨d, hd, -, rfl⟩ := starpuRelease_ok e
      have h1 : Inv { w with held := w.held.eraseP (fun p => p.1 == d), log := w.log ++ [.release d] } :=
        ⟨h.life.use_event (e := .release d) rfl (h.local hj hd) rfl rfl rfl rfl, h.counts⟩
      exact h1.setLocal (l := l) (local_of hj) rfl
    | raised w1 => exact absurd e starpuRelease_not_raised
    | ub => rw [e] at he; rcases he with he | he <;> cases he
    | stuck => rw [e] at he; rcases he with he | he <;> cases he

theorem Inv.copyLocal {w : World} (h : Inv w) {j : Nat} {l : LocalData} (hj : w.localOf j = some l) :
    Inv { w.retain l.data with locals := (w.retain l.data).locals ++ [some l] } := by
  refine ⟨(h.life.retain (o := l.data) fun d hd => h.local hj hd).congr rfl rfl rfl rfl, fun d => ?_⟩
  have hc := h.counts d
  rw [owners_eq] at hc ⊢
  dsimp only
  rw [countP_snoc, retain_use, retain_handles, retain_locals]
  simp only [localData_some]
  omega

theorem Inv.assignLocal {w : World} (h : Inv w) {i j : Nat} {old new : LocalData} (hi : w.localOf i = some old) (hj : w.localOf j = some new) :
    Settled { w.retain new.data with locals := (w.retain new.data).locals.set i (some new) } old.data := by
  refine ⟨?_, fun d => ?_⟩
  · exact ((h.life.retain (o := new.data) fun d hd => h.local hj hd).congr rfl rfl rfl rfl)
  have hc := h.counts d
  rw [owners_eq] at hc ⊢
  dsimp only
  have hs := countP_set_one (p := fun l => localData l == some d) (a := some new) (local_of hi)
  rw [retain_use, retain_handles, retain_locals]
  simp only [localData_some] at hs ⊢
  omega

theorem Inv.endLocal {w : World} (h : Inv w) {j : Nat} {l : LocalData} (hj : w.locals[j]? = some (some l)) :
    Settled { w with locals := w.locals.set j none } l.data := by
  refine ⟨?_, fun d => ?_⟩
  · exact (h.life.congr rfl rfl rfl rfl)
  have hc := h.counts d
  rw [owners_eq] at hc ⊢
  dsimp only
  have hs := countP_set_one (p := fun l => localData l == some d) (a := none) hj
  simp only [localData_some, localData_none] at hs ⊢
  simp only [one, Option.none_beq_some, Bool.false_eq_true, if_false] at hs ⊢
  omega

theorem localRelease_ok {w w' : World} {j : Nat} {l : LocalData} (hj : w.localOf j = some l) (h : w.localRelease j = .ok w') :
    ∃ d, l.data = some d ∧ d ∈ w.held.map Prod.fst ∧
      w' = { w with held := w.held.eraseP (fun p => p.1 == d), log := w.log ++ [.release d], locals := w.locals.set j (some ⟨l.data, none, false⟩) } := by
  unfold World.localRelease at h
  simp only [hj] at h
  cases e : w.starpuRelease l.data with
  | ok w1 =>
    rw [e] at h
    cases h
    obtain ⟨d, hd, hm, rfl⟩ := starpuRelease_ok e
    exact ⟨d, hd, hm, rfl⟩
  | raised w1 => exact absurd e starpuRelease_not_raised
  | ub => rw [e] at h; cases h
  | stuck => rw [e] at h; cases h

theorem localRelease_not_raised {w w' : World} {j : Nat} : w.localRelease j ≠ .raised w' := by
  intro h
  unfold World.localRelease at h
  split at h
  · cases h
  · rename_i l _
    cases e : w.starpuRelease l.data with
    | raised w1 => exact absurd e starpuRelease_not_raised
    | ok w1 => rw [e] at h; cases h
    | ub => rw [e] at h; cases h
    | stuck => rw [e] at h; cases h

theorem Inv.destroyLocal {w w' : World} (h : Inv w) {j : Nat} (he : w.destroyLocal j = .ok w' ∨ w.destroyLocal j = .raised w') : Inv w' := by
  unfold World.destroyLocal at he
  cases hj : w.localOf j with
  | none =>
    simp only [hj] at he
    rcases he with he | he <;> cases he
  | some l =>
    simp only [hj] at he
    by_cases ha : l.acquired
    · rw [if_pos ha] at he
      cases e : w.localRelease j with
      | ok w1 =>
        rw [e] at he
        have h1 := h.localRelease (.inl e)
        obtain ⟨d, hd, hm, rfl⟩ := localRelease_ok hj e
        rcases he with he | he
        · refine (h1.endLocal (j := j) (l := ⟨l.data, none, false⟩) ?_).drop he
          obtain ⟨hlt, -⟩ := List.getElem?_eq_some_iff.1 (local_of hj)
          dsimp only
          rw [List.getElem?_set_self hlt]
        · exact absurd he drop_not_raised
      | raised w1 => exact absurd e localRelease_not_raised
      | ub => rw [e] at he; rcases he with he | he <;> cases he
      | stuck => rw [e] at he; rcases he with he | he <;> cases he
    · rw [if_neg ha] at he
      rcases he with he | he
      · exact (h.endLocal (local_of hj)).drop he
      · exact absurd he drop_not_raised

/-- Every operation keeps the invariant, whether it ends normally or by an exception. -/
theorem Inv.step {w w' : World} (h : Inv w) {op : Op} (he : step w op = .ok w' ∨ step w op = .raised w') : Inv w' := by
  cases op with
  | newHandle size mode => exact h.newHandle he
  | nullHandle =>
    rcases he with he | he <;> cases he
    exact h.nullHandle
  | copyHandle i =>
    simp only [Handle.step, World.copyHandle] at he
    cases hi : w.dataOf i with
    | none => simp only [hi] at he; rcases he with he | he <;> cases he
    | some o =>
      simp only [hi] at he
      rcases he with he | he <;> cases he
      exact h.copyHandle hi
  | assignHandle i j =>
    simp only [Handle.step, World.assignHandle] at he
    cases hi : w.dataOf i with
    | none => simp only [hi] at he; rcases he with he | he <;> cases he
    | some o =>
      cases hj : w.dataOf j with
      | none => simp only [hi, hj] at he; rcases he with he | he <;> cases he
      | some o' =>
        simp only [hi, hj] at he
        rcases he with he | he
        · exact (h.assignHandle hi hj).drop he
        · exact absurd he drop_not_raised
  | unregister i =>
    simp only [Handle.step, World.unregister] at he
    cases hi : w.dataOf i with
    | none => simp only [hi] at he; rcases he with he | he <;> cases he
    | some o =>
      simp only [hi] at he
      rcases he with he | he
      · exact (h.resetHandle rfl hi).drop he
      · exact absurd he drop_not_raised
  | destroyHandle i =>
    simp only [Handle.step, World.destroyHandle] at he
    cases hi : w.dataOf i with
    | none => simp only [hi] at he; rcases he with he | he <;> cases he
    | some o =>
      simp only [hi] at he
      rcases he with he | he
      · exact (h.resetHandle rfl hi).drop he
      · exact absurd he drop_not_raised
  | acquireHandle i mode fails => exact h.acquireHandle he
  | localAcquire j mode fails => exact h.localAcquire he
  | localRelease j => exact h.localRelease he
  | copyLocal j =>
    simp only [Handle.step, World.copyLocal] at he
    cases hj : w.localOf j with
    | none => simp only [hj] at he; rcases he with he | he <;> cases he
    | some l =>
      simp only [hj] at he
      rcases he with he | he <;> cases he
      exact h.copyLocal hj
  | assignLocal i j =>
    simp only [Handle.step, World.assignLocal] at he
    cases hi : w.localOf i with
    | none => simp only [hi] at he; rcases he with he | he <;> cases he
    | some l =>
      cases hj : w.localOf j with
      | none => simp only [hi, hj] at he; rcases he with he | he <;> cases he
      | some l' =>
        simp only [hi, hj] at he
        rcases he with he | he
        · exact (h.assignLocal hi hj).drop he
        · exact absurd he drop_not_raised
  | destroyLocal j => exact h.destroyLocal he

/-- The invariant holds after every history. -/
theorem Inv.run {w w' : World} (h : Inv w) : ∀ {ops : List Op}, run w ops = .ok w' → Inv w'
  | [], he => by cases he; exact h
  | op :: ops, he => by
    unfold Handle.run at he
    cases e : Handle.step w op with
    | ok w1 =>
      simp only [e] at he
      exact (h.step (.inl e)).run he
    | raised w1 =>
      simp only [e] at he
      exact (h.step (.inr e)).run he
    | ub => simp only [e] at he; cases he
    | stuck => simp only [e] at he; cases he

end NNTile.Handle
