import Verif.Lib.ReduxLayers
/-! Programs which use a model, executed with replicas. -/
namespace NNTile

theorem RStep.congr {α : Type} {ts : List (Task1 α)} {R R' : Handle → ReduxCl α} (hR : ∀ t ∈ ts, t.mode = .REDUX → R t.out = R' t.out) {σ : RState α}
    (hi : ∀ h, σ.reps h ≠ [] → R h = R' h) {r : M (RState α)} (e : RStep ts R σ r) : RStep ts R' σ r := by
  cases e with
  | plain e hm hr => exact .plain e hm hr
  | onTile e hm => exact .onTile e hm
  | onNew e hm =>
    rw [hR _ (List.mem_of_getElem? e.1) hm]
    exact .onNew e hm
  | onReplica e hm hr => exact .onReplica e hm hr
  | merge hr =>
    rw [hi _ (by rw [hr]; simp)]
    exact .merge hr
  | mergeReplicas hr hd =>
    rw [hi _ (by rw [hr]; simp)]
    exact .mergeReplicas hr hd

theorem RStep.reps {α : Type} {ts : List (Task1 α)} {R : Handle → ReduxCl α} {P : Handle → Prop} (hP : ∀ t ∈ ts, t.mode = .REDUX → P t.out) {σ σ' : RState α}
    (hi : ∀ h, σ.reps h ≠ [] → P h) {r : M (RState α)} (e : RStep ts R σ r) (hr : r = .ok σ') : ∀ h, σ'.reps h ≠ [] → P h := by
  cases e with
  | plain e hm _ =>
    rw [M.bind_eq_ok] at hr
    obtain ⟨s, -, hr⟩ := hr
    cases Except.ok.inj hr
    exact hi
  | onTile e hm =>
    rw [M.bind_eq_ok] at hr
    obtain ⟨s, -, hr⟩ := hr
    cases Except.ok.inj hr
    exact hi
  | onNew e hm =>
    simp only [M.bind_eq_ok] at hr
    obtain ⟨b, -, b', -, hr⟩ := hr
    cases Except.ok.inj hr
    intro h hh
    simp only [RState.withDone, RState.withReps] at hh
    split at hh
    · next c => rw [c]; exact hP _ (List.mem_of_getElem? e.1) hm
    · exact hi h hh
  | onReplica e hm _ =>
    simp only [M.bind_eq_ok] at hr
    obtain ⟨b, -, hr⟩ := hr
    cases Except.ok.inj hr
    intro h hh
    simp only [RState.withDone, RState.withReps] at hh
    split at hh
    · next c => rw [c]; exact hP _ (List.mem_of_getElem? e.1) hm
    · exact hi h hh
  | merge hr' =>
    simp only [M.bind_eq_ok] at hr
    obtain ⟨b, -, hr⟩ := hr
    cases Except.ok.inj hr
    intro h hh
    simp only [RState.withMain, RState.withReps] at hh
    split at hh
    · next c => rw [c]; exact hi _ (by rw [hr']; simp)
    · exact hi h hh
  | mergeReplicas hr' hd =>
    simp only [M.bind_eq_ok] at hr
    obtain ⟨b, -, hr⟩ := hr
    cases Except.ok.inj hr
    intro h hh
    simp only [RState.withReps] at hh
    split at hh
    · next c => rw [c]; exact hi _ (by rw [hr']; simp)
    · exact hi h hh

theorem RReach.congr {α : Type} {ts : List (Task1 α)} {R R' : Handle → ReduxCl α} (hR : ∀ t ∈ ts, t.mode = .REDUX → R t.out = R' t.out) {s : Store α} {σ : RState α} (h : RReach ts R s σ) :
    RReach ts R' s σ ∧ ∀ h, σ.reps h ≠ [] → R h = R' h := by
  induction h with
  | start => exact ⟨.start, fun h hh => absurd rfl hh⟩
  | step _ e ih => exact ⟨.step ih.1 (e.congr hR ih.2), e.reps hR ih.2 rfl⟩

theorem AllT.append_ok {α : Type} {P : Task1 α → Prop} {p ts : List (Task1 α)} {a : M (List (Task1 α))} (h : ∀ t ∈ p, P t) (ha : AllT P a) (e : a = .ok ts) : ∀ t ∈ p ++ ts, P t := by
  intro t ht
  rcases List.mem_append.1 ht with ht | ht
  · exact h t ht
  · exact ha ts e t ht

theorem kindOf_eq {rs : List (Tensor × ReduxKind)} (hk : ∀ p ∈ rs, ∀ q ∈ rs, p.1.id = q.1.id → p.2 = q.2) {p : Tensor × ReduxKind} (hp : p ∈ rs) (i : Nat) :
    kindOf rs (p.1.id, i) = some p.2 := by
  unfold kindOf
  cases hf : rs.reverse.find? (fun q => decide (q.1.id = p.1.id)) with
  | none =>
    rw [List.find?_eq_none] at hf
    have := hf p (by simpa using hp)
    simp at this
  | some q =>
    have h1 := List.find?_some hf
    have h2 := List.mem_of_find?_eq_some hf
    have h3 : q.1.id = p.1.id := by simpa using h1
    rw [Option.map_some, hk p hp q (by simpa using h2) h3.symm]

theorem kindOf_mem {rs : List (Tensor × ReduxKind)} {h : Handle} {k : ReduxKind} (e : kindOf rs h = some k) : ∃ p ∈ rs, p.1.id = h.1 ∧ p.2 = k := by
  unfold kindOf at e
  rw [Option.map_eq_some_iff] at e
  obtain ⟨q, hq, rfl⟩ := e
  exact ⟨q, by simpa using List.mem_of_find?_eq_some hq, by simpa using List.find?_some hq, rfl⟩

section
variable {m : BaseModel ℝ} {L : List (CrossEntropy ℝ)} {s : Store ℝ} (H : ReduxNet m L s)
include H

theorem ReduxNet.tgt {l : PyLayer ℝ} (hl : l ∈ m.layers) {p : Tensor × ReduxKind} (hp : p ∈ l.reductions) : Tgt (fun h => (s h).size) (kindOf (netReductions m L)) p.2 p.1 := by
  have hp : p ∈ netReductions m L := List.mem_append_left _ (List.mem_flatMap.2 ⟨l, hl, hp⟩)
  exact ⟨(H.ready p hp).1, fun t ht => ⟨(H.ready p hp).2.size ht, kindOf_eq H.kinds hp _⟩⟩

theorem ReduxNet.noMse {l : PyLayer ℝ} (hl : l ∈ m.layers) {T : Tensor} (hT : T ∈ l.tensors) : NoMse (kindOf (netReductions m L)) T := by
  intro i e
  obtain ⟨p, hp, e1, e2⟩ := kindOf_mem e
  exact (H.pairs p hp e2).1 T (List.mem_append_left _ (List.mem_flatMap.2 ⟨l, hl, hT⟩)) e1.symm

theorem ReduxNet.forward {asIdx : ℝ → Int} {c : Bool} : AllT (Task1.Redc (fun h => (s h).size) (kindOf (netReductions m L))) (m.forwardAsync asIdx c) := by
  refine AllT.seq fun a ha => ?_
  obtain ⟨l, hl, rfl⟩ := List.mem_map.1 ha
  exact PyLayer.forward_redc (fun p hp => H.tgt hl hp) (fun T hT => H.wf T (List.mem_append_left _ (List.mem_flatMap.2 ⟨l, hl, hT⟩))) (fun T hT => H.noMse hl hT)

theorem ReduxNet.backward {asIdx : ℝ → Int} {c : Bool} : AllT (Task1.Redc (fun h => (s h).size) (kindOf (netReductions m L))) (m.backwardAsync asIdx c) := by
  refine AllT.seq fun a ha => ?_
  obtain ⟨l, hl, rfl⟩ := List.mem_map.1 ha
  rw [List.mem_reverse] at hl
  exact PyLayer.backward_redc (fun p hp => H.tgt hl hp) (fun T hT => H.wf T (List.mem_append_left _ (List.mem_flatMap.2 ⟨l, hl, hT⟩))) (fun T hT => H.noMse hl hT)

theorem ReduxNet.loss {asIdx : ℝ → Int} {l : CrossEntropy ℝ} (hl : l ∈ L) : AllT (fun t => t.commuting.Redc (fun h => (s h).size) (kindOf (netReductions m L))) (l.calcAsync asIdx) := by
  refine CrossEntropy.calc_redc (fun p hp => ?_) (fun T hT => H.wf T (List.mem_append_right _ (List.mem_flatMap.2 ⟨l, hl, hT⟩))) fun T hT i e => ?_
  · have hp : p ∈ netReductions m L := List.mem_append_right _ (List.mem_flatMap.2 ⟨l, hl, hp⟩)
    exact ⟨(H.ready p hp).1, fun t ht => ⟨(H.ready p hp).2.size ht, kindOf_eq H.kinds hp _⟩⟩
  · obtain ⟨p, hp, e1, e2⟩ := kindOf_mem e
    exact (H.pairs p hp e2).1 T (List.mem_append_right _ (List.mem_flatMap.2 ⟨l, hl, hT⟩)) e1.symm

omit H in
theorem clearGrads_redc {N : Handle → Nat} {kd : Handle → Option ReduxKind} (l : List PyEntry) : AllT (Task1.Redc N kd) (seqAsync (l.map PyEntry.clearGrad) : M (List (Task1 ℝ))) := by
  refine AllT.seq fun a ha => ?_
  obtain ⟨p, -, rfl⟩ := List.mem_map.1 ha
  cases p with
  | moments m => exact AllT.when (clearAsync_mse _)
  | list l => exact AllT.error

theorem ReduxNet.program {asIdx : ℝ → Int} {c : Bool} {ts : List (Task1 ℝ)} (h : ReduxProgram asIdx c m L ts) : ∀ t ∈ ts, t.Redc (fun h => (s h).size) (kindOf (netReductions m L)) := by
  induction h with
  | nil => intro t ht; cases ht
  | forward _ e ih => exact AllT.append_ok ih H.forward e
  | backward _ e ih => exact AllT.append_ok ih H.backward e
  | clear _ e ih => exact AllT.append_ok ih (AllT.cons (clearGrads_redc _) (AllT.cons (clearGrads_redc _) AllT.nil)) e
  | loss _ hl e ih =>
    intro t ht
    rcases List.mem_append.1 ht with ht | ht
    · exact ih t ht
    · obtain ⟨u, hu, rfl⟩ := List.mem_map.1 ht
      exact H.loss hl _ e u hu
  | other _ e ih =>
    intro t ht
    rcases List.mem_append.1 ht with ht | ht
    · exact ih t ht
    · obtain ⟨h1, h2, h3⟩ := e t ht
      refine ⟨fun rs b b' => h2 rs b b', fun hm => absurd hm h1, fun hk => ?_⟩
      obtain ⟨p, hp, e1, e2⟩ := kindOf_mem hk
      exact absurd e1.symm (h3 p hp e2)

theorem ReduxNet.runG {asIdx : ℝ → Int} {c : Bool} {ts : List (Task1 ℝ)} (h : ReduxProgram asIdx c m L ts) {s' : Store ℝ} (run : runAll1 ts s = .ok s') :
    RunG (redOf (kindOf (netReductions m L))) ts s s' :=
  Redc.run (H.program h) (fun _ => rfl) (fun hd hk => by
    obtain ⟨p, hp, e1, e2⟩ := kindOf_mem hk
    obtain ⟨x, i⟩ := hd
    change p.1.id = x at e1
    subst e1
    exact (H.pairs p hp e2).2 i) run

theorem ReduxNet.codelets {asIdx : ℝ → Int} {c : Bool} {ts : List (Task1 ℝ)} (h : ReduxProgram asIdx c m L ts) : ∀ t ∈ ts, t.mode = .REDUX →
    registered (netReductions m L) t.out = (redOf (kindOf (netReductions m L)) t.out).cl := by
  intro t ht hm
  obtain ⟨k, hk, -⟩ := (H.program h t ht).2.1 hm
  rw [registered, redOf, hk]
  exact (ReduxKind.red_cl k).symm

theorem ReduxNet.reach {asIdx : ℝ → Int} {c : Bool} {ts : List (Task1 ℝ)} (h : ReduxProgram asIdx c m L ts) {σ : RState ℝ} (hr : RReach ts (registered (netReductions m L)) s σ) :
    RReach ts (fun h => (redOf (kindOf (netReductions m L)) h).cl) s σ ∧ ∀ h, σ.reps h ≠ [] → registered (netReductions m L) h = (redOf (kindOf (netReductions m L)) h).cl :=
  hr.congr (H.codelets h)

end

end NNTile
