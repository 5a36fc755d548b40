import Verif.Model.Layer
import Verif.Spec.Layer
import Verif.Lib.Seq
import Verif.Lib.Box
import Mathlib.Logic.Function.Basic
import Mathlib.Tactic.NormNum
/-!
# Sequences of tensor operations with tracking of the contents
-/
namespace NNTile
open Finset
variable {α : Type} {ι : Type} [DecidableEq ι]

/-- Knowledge about the tensors of a layer: all are registered, some have known contents. -/
structure St (tens : ι → Tensor) (s : Store α) (σ : ι → Option (List Nat → α)) : Prop where
  ready : ∀ i, (tens i).Ready s
  hold : ∀ i v, σ i = some v → (tens i).Holds s v

theorem Runs.nil {s : Store α} {ids : List Nat} {P : Store α → Prop} (h : P s) : Runs (seqAsync []) s ids P :=
  ⟨[], s, rfl, rfl, fun _ _ => rfl, h⟩

theorem Runs.imp {p : M (List (Task1 α))} {s : Store α} {ids ids' : List Nat} {P Q : Store α → Prop} (h : Runs p s ids P)
    (hi : ∀ i ∈ ids, i ∈ ids') (hPQ : ∀ s', OnlyChanged ids s s' → P s' → Q s') : Runs p s ids' Q := by
  obtain ⟨t, s', h1, h2, h3, h4⟩ := h
  exact ⟨t, s', h1, h2, h3.mono hi, hPQ _ h3 h4⟩

theorem Runs.cons {p : M (List (Task1 α))} {ps : List (M (List (Task1 α)))} {s : Store α} {ids : List Nat} {P Q : Store α → Prop}
    (h : Runs p s ids Q) (k : ∀ s', OnlyChanged ids s s' → Q s' → Runs (seqAsync ps) s' ids P) : Runs (seqAsync (p :: ps)) s ids P := by
  obtain ⟨t, s1, e1, e2, e3, e4⟩ := h
  obtain ⟨t', s2, f1, f2, f3, f4⟩ := k s1 e3 e4
  refine ⟨t ++ t', s2, ?_, ?_, (e3.trans f3).mono (by simp), f4⟩
  · simp only [seqAsync, e1, f1, M.bind_ok]
  · rw [runAll1_append, e2, M.bind_ok, f2]

theorem Computes.runs {p : M (List (Task1 α))} {s : Store α} {dst : Tensor} {v : List Nat → α} (h : Computes p s dst v) :
    Runs p s [dst.id] (fun s' => dst.Holds s' v ∧ dst.Ready s') := by
  obtain ⟨t, s', h1, h2, h3, h4, h5⟩ := h
  exact ⟨t, s', h1, h2, h4, h3, h5⟩

theorem Runs.computes {p : M (List (Task1 α))} {s : Store α} {dst : Tensor} {v : List Nat → α}
    (h : Runs p s [dst.id] (fun s' => dst.Holds s' v ∧ dst.Ready s')) : Computes p s dst v := by
  obtain ⟨t, s', h1, h2, h4, h3, h5⟩ := h
  exact ⟨t, s', h1, h2, h3, h4, h5⟩

/-- Consecutive operations on the same result. -/
theorem Computes.then {p : M (List (Task1 α))} {ps : List (M (List (Task1 α)))} {s : Store α} {dst : Tensor} {v v' : List Nat → α}
    (h : Computes p s dst v)
    (k : ∀ s', OnlyChanged [dst.id] s s' → dst.Holds s' v → dst.Ready s' → Computes (seqAsync ps) s' dst v') :
    Computes (seqAsync (p :: ps)) s dst v' :=
  (h.runs.cons fun s' hc hq => (k s' hc hq.1 hq.2).runs).computes

theorem Computes.nil {s : Store α} {dst : Tensor} {v : List Nat → α} (h : dst.Holds s v) (h' : dst.Ready s) :
    Computes (seqAsync []) s dst v := ⟨[], s, rfl, rfl, h, fun _ _ => rfl, h'⟩

theorem Computes.skip {s : Store α} {dst : Tensor} {v : List Nat → α} (h : dst.Holds s v) (h' : dst.Ready s) :
    Computes (.ok []) s dst v := ⟨[], s, rfl, rfl, h, fun _ _ => rfl, h'⟩

theorem Runs.skip {s : Store α} {ids : List Nat} {P : Store α → Prop} (h : P s) : Runs (.ok []) s ids P :=
  ⟨[], s, rfl, rfl, fun _ _ => rfl, h⟩

/-- One operation with result `v` in tensor `i`. -/
theorem St.step {tens : ι → Tensor} (inj : Function.Injective fun i => (tens i).id) {s : Store α} {σ : ι → Option (List Nat → α)}
    (h : St tens s σ) {i : ι} {v : List Nat → α} {p : M (List (Task1 α))} (hp : Computes p s (tens i) v) {ps : List (M (List (Task1 α)))}
    {ids : List Nat} (hi : (tens i).id ∈ ids) {P : Store α → Prop}
    (k : ∀ s', St tens s' (Function.update σ i (some v)) → Runs (seqAsync ps) s' ids P) : Runs (seqAsync (p :: ps)) s ids P := by
  refine (hp.runs.imp (ids' := ids) (by simpa using hi) (Q := fun s' => St tens s' (Function.update σ i (some v))) ?_).cons
    (fun s' _ hs' => k s' hs')
  rintro s' hc ⟨h1, h2⟩
  have hne : ∀ j, j ≠ i → (tens j).id ∉ [(tens i).id] := by
    intro j hj e
    exact hj (inj (by simpa using e))
  refine ⟨fun j => ?_, fun j w hw => ?_⟩
  · by_cases hj : j = i
    · subst hj; exact h2
    · exact hc.ready (h.ready j) (hne j hj)
  · by_cases hj : j = i
    · subst hj
      rw [Function.update_self] at hw
      cases hw
      exact h1
    · rw [Function.update_of_ne hj] at hw
      exact hc.holds (h.hold j w hw) (hne j hj)

/-- One operation which changes several tensors `K`. -/
theorem St.stepRuns {tens : ι → Tensor} (inj : Function.Injective fun i => (tens i).id) {s : Store α} {σ σ' : ι → Option (List Nat → α)}
    (h : St tens s σ) {K : List ι} {Q : Store α → Prop} {p : M (List (Task1 α))} (hp : Runs p s (K.map fun i => (tens i).id) Q)
    (hσ : ∀ j, j ∉ K → ∀ v, σ' j = some v → σ j = some v)
    (hQ : ∀ s', Q s' → ∀ j ∈ K, (tens j).Ready s' ∧ ∀ v, σ' j = some v → (tens j).Holds s' v) {ps : List (M (List (Task1 α)))}
    {ids : List Nat} (hi : ∀ j ∈ K, (tens j).id ∈ ids) {P : Store α → Prop}
    (k : ∀ s', St tens s' σ' → Runs (seqAsync ps) s' ids P) : Runs (seqAsync (p :: ps)) s ids P := by
  refine (hp.imp (ids' := ids) (by simpa using hi) (Q := fun s' => St tens s' σ') ?_).cons (fun s' _ hs' => k s' hs')
  intro s' hc hq
  have hne : ∀ j, j ∉ K → (tens j).id ∉ K.map fun i => (tens i).id := by
    intro j hj e
    obtain ⟨i, hi, e⟩ := List.mem_map.1 e
    have := inj e
    subst this
    exact hj hi
  refine ⟨fun j => ?_, fun j w hw => ?_⟩
  · by_cases hj : j ∈ K
    · exact (hQ s' hq j hj).1
    · exact hc.ready (h.ready j) (hne j hj)
  · by_cases hj : j ∈ K
    · exact (hQ s' hq j hj).2 w hw
    · exact hc.holds (h.hold j w (hσ j hj w hw)) (hne j hj)

/-- `invalidate_submit`: the contents become unknown. -/
theorem St.invalidate {tens : ι → Tensor} (inj : Function.Injective fun i => (tens i).id) {s : Store α} {σ : ι → Option (List Nat → α)}
    (h : St tens s σ) (i : ι) (en : Bool) {ps : List (M (List (Task1 α)))}
    {ids : List Nat} (hi : (tens i).id ∈ ids) {P : Store α → Prop}
    (k : ∀ s', St tens s' (Function.update σ i none) → Runs (seqAsync ps) s' ids P) :
    Runs (seqAsync (invalidateAsync en (tens i) :: ps)) s ids P := by
  have key : Runs (invalidateAsync (α := α) en (tens i)) s [(tens i).id] (fun s' => (tens i).Ready s') := by
    cases en with
    | false => exact ⟨[], s, rfl, rfl, fun _ _ => rfl, h.ready i⟩
    | true =>
      obtain ⟨s', h1, h2, h3, h4⟩ := run_tilewise (h.ready i).1 (h.ready i).2
        (gt := fun j => [task0 (α := α) "invalidate" .W ((tens i).id, j) (fun b => .ok b)]) (fun _ => none)
        (by simp [task0]) (by simp [task0]) (by
          intro t ht
          refine ⟨Buf.undef (s ((tens i).id, lin (tens i).grid t)).size, ?_, rfl, fun _ _ => rfl⟩
          simp [foldBuf, task0, Task1.inp])
      exact ⟨_, s', by rw [invalidateAsync, if_pos rfl, loop0_ok], h1, h3, (h.ready i).1, h4⟩
  refine (key.imp (ids' := ids) (by simpa using hi) (Q := fun s' => St tens s' (Function.update σ i none)) ?_).cons
    (fun s' _ hs' => k s' hs')
  rintro s' hc h2
  have hne : ∀ j, j ≠ i → (tens j).id ∉ [(tens i).id] := by
    intro j hj e
    exact hj (inj (by simpa using e))
  refine ⟨fun j => ?_, fun j w hw => ?_⟩
  · by_cases hj : j = i
    · subst hj; exact h2
    · exact hc.ready (h.ready j) (hne j hj)
  · by_cases hj : j = i
    · subst hj
      rw [Function.update_self] at hw
      cases hw
    · rw [Function.update_of_ne hj] at hw
      exact hc.holds (h.hold j w hw) (hne j hj)

/-! ### Accumulation of gradients -/

theorem Moments.GradHolds.changed {m : Moments} {s s' : Store ℝ} {g : List Nat → ℝ} {ids : List Nat} (h : m.GradHolds s g) (hc : OnlyChanged ids s s')
    (hi : ∀ i ∈ m.gradIds, i ∉ ids) : m.GradHolds s' g := by
  intro hr
  have := hi m.grad.id (by simp [Moments.gradIds, hr])
  exact ⟨hc.ready (h hr).1 this, hc.holds (h hr).2 this⟩

/-- One accumulation which is performed only if the gradient is required. -/
theorem Moments.when_runs {m : Moments} {p : M (List (Task1 ℝ))} {s : Store ℝ} {v : List Nat → ℝ}
    (h : m.gradRequired = true → Computes p s m.grad v) : Runs (whenAsync m.gradRequired p) s m.gradIds (fun s' => m.GradHolds s' v) := by
  unfold whenAsync Moments.gradIds
  split
  · rename_i hr
    exact (h hr).runs.imp (by simp) (fun s' _ hq _ => ⟨hq.2, hq.1⟩)
  · rename_i hr
    exact Runs.skip fun h => absurd h hr

theorem Runs.mono {p : M (List (Task1 α))} {s : Store α} {ids ids' : List Nat} {P : Store α → Prop} (h : Runs p s ids P)
    (hi : ∀ i ∈ ids, i ∈ ids') : Runs p s ids' P := h.imp hi (fun _ _ h => h)

/-- As `Runs.cons`, with the changed tensors of the first operation only. -/
theorem Runs.cons' {p : M (List (Task1 α))} {ps : List (M (List (Task1 α)))} {s : Store α} {ids ids' : List Nat} {P Q : Store α → Prop}
    (h : Runs p s ids' Q) (hi : ∀ i ∈ ids', i ∈ ids) (k : ∀ s', OnlyChanged ids' s s' → Q s' → Runs (seqAsync ps) s' ids P) :
    Runs (seqAsync (p :: ps)) s ids P :=
  Runs.cons (h.imp hi (Q := fun s' => OnlyChanged ids' s s' ∧ Q s') (fun _ hc hq => ⟨hc, hq⟩)) (fun s' _ hq => k s' hq.1 hq.2)

theorem newTensor_ok {id : Nat} {S B : List Nat} (h : Pos S ∧ Pos B ∧ B.length = S.length) : newTensor id S B = .ok ⟨id, S, B⟩ := by
  rw [newTensor, throwIf_neg (by simpa [Tensor.WF] using h), M.bind_ok]

/-- Knowledge about a list of tensors of different identities, numbered by their positions. -/
theorem St.ofList {L : List Tensor} {s : Store α} (h : ∀ T ∈ L, T.Ready s) (σ : Fin L.length → Option (List Nat → α))
    (hold : ∀ i v, σ i = some v → (L.get i).Holds s v) : St L.get s σ := ⟨fun i => h _ (L.get_mem i), hold⟩

theorem get_id_injective {L : List Tensor} (h : (L.map Tensor.id).Nodup) : Function.Injective fun i => (L.get i).id := by
  intro i j e
  have := List.nodup_iff_injective_get.1 h (a₁ := ⟨i, by simp⟩) (a₂ := ⟨j, by simp⟩) (by simpa using e)
  simpa [Fin.ext_iff] using this

end NNTile
