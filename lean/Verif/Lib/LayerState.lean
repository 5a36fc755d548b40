import Verif.Lib.VJP
/-!
# State of a layer in the middle of its work: values it reads, gradients it accumulates, temporary tensors
-/
namespace NNTile
open Finset
variable {ι : Type} [DecidableEq ι]

/-- The tensors read have the contents `env`, the gradients `g`, the temporary tensors the contents `σ` as far as they are known. -/
structure LSt (ins gs : List Moments) (tens : ι → Tensor) (s : Store ℝ) (env g : Env) (σ : ι → Option (List Nat → ℝ)) : Prop where
  vals : ValuesHold ins s env
  grads : GradsHold gs s g
  st : St tens s σ

/-- All of these tensors are different. -/
structure LSep (ins gs : List Moments) (tens : ι → Tensor) : Prop where
  inj : Function.Injective fun i => (tens i).id
  vt : ∀ m ∈ ins, ∀ i, m.value.id ≠ (tens i).id
  gt : ∀ m ∈ gs, m.gradRequired = true → ∀ i, m.grad.id ≠ (tens i).id
  vg : ∀ m ∈ ins, ∀ m' ∈ gs, m'.gradRequired = true → m.value.id ≠ m'.grad.id
  gg : ∀ m ∈ gs, ∀ m' ∈ gs, m.gradRequired = true → m'.gradRequired = true → m.grad.id = m'.grad.id → m = m'
  vv : ∀ m ∈ gs, ∀ m' ∈ gs, m.value.id = m'.value.id → m = m'

variable {ins gs : List Moments} {tens : ι → Tensor} {s : Store ℝ} {env g : Env} {σ : ι → Option (List Nat → ℝ)}

theorem LSt.value (h : LSt ins gs tens s env g σ) {m : Moments} (hm : m ∈ ins) : m.value.Ready s ∧ m.value.Holds s (env m.value.id) := h.vals m hm
theorem LSt.ready (h : LSt ins gs tens s env g σ) (i : ι) : (tens i).Ready s := h.st.ready i
theorem LSt.hold (h : LSt ins gs tens s env g σ) {i : ι} {v : List Nat → ℝ} (e : σ i = some v) : (tens i).Holds s v := h.st.hold i v e

theorem LSt.keep (sep : LSep ins gs tens) (h : LSt ins gs tens s env g σ) {s' : Store ℝ} {i : ι} (hc : OnlyChanged [(tens i).id] s s')
    {σ' : ι → Option (List Nat → ℝ)} (st : St tens s' σ') : LSt ins gs tens s' env g σ' := by
  refine ⟨h.vals.changed hc ?_, ?_, st⟩
  · intro m hm e
    exact sep.vt m hm i (by simpa using e)
  · intro m hm hr
    have : m.grad.id ∉ [(tens i).id] := by
      intro e
      exact sep.gt m hm hr i (by simpa using e)
    exact ⟨hc.ready (h.grads m hm hr).1 this, hc.holds (h.grads m hm hr).2 this⟩

theorem St.changed {s' : Store ℝ} {ids : List Nat} (h : St tens s σ) (hc : OnlyChanged ids s s') (hi : ∀ i, (tens i).id ∉ ids) : St tens s' σ :=
  ⟨fun i => hc.ready (h.ready i) (hi i), fun i v e => hc.holds (h.hold i v e) (hi i)⟩

theorem LSt.step (sep : LSep ins gs tens) (h : LSt ins gs tens s env g σ) {i : ι} {v : List Nat → ℝ} {p : M (List (Task1 ℝ))}
    (hp : Computes p s (tens i) v) {ps : List (M (List (Task1 ℝ)))} {ids : List Nat} (hi : (tens i).id ∈ ids) {P : Store ℝ → Prop}
    (k : ∀ s', LSt ins gs tens s' env g (Function.update σ i (some v)) → Runs (seqAsync ps) s' ids P) : Runs (seqAsync (p :: ps)) s ids P := by
  refine Runs.cons' hp.runs (by simpa using hi) fun s' hc hq => k s' (h.keep sep hc ?_)
  have hne : ∀ j, j ≠ i → (tens j).id ∉ [(tens i).id] := by
    intro j hj e
    exact hj (sep.inj (by simpa using e))
  refine ⟨fun j => ?_, fun j w hw => ?_⟩
  · by_cases hj : j = i
    · subst hj; exact hq.2
    · exact hc.ready (h.st.ready j) (hne j hj)
  · by_cases hj : j = i
    · subst hj
      rw [Function.update_self] at hw
      cases hw
      exact hq.1
    · rw [Function.update_of_ne hj] at hw
      exact hc.holds (h.st.hold j w hw) (hne j hj)

theorem LSt.inval (sep : LSep ins gs tens) (h : LSt ins gs tens s env g σ) (i : ι) (en : Bool) {ps : List (M (List (Task1 ℝ)))} {ids : List Nat}
    (hi : (tens i).id ∈ ids) {P : Store ℝ → Prop} (k : ∀ s', LSt ins gs tens s' env g (Function.update σ i none) → Runs (seqAsync ps) s' ids P) :
    Runs (seqAsync (invalidateAsync en (tens i) :: ps)) s ids P := by
  have h1 : Runs (seqAsync [invalidateAsync en (tens i)]) s [(tens i).id] (fun s' => St tens s' (Function.update σ i none)) :=
    h.st.invalidate sep.inj i en (by simp) fun s' hs' => Runs.nil hs'
  obtain ⟨t, s1, e1, e2, e3, e4⟩ := h1
  have h2 : Runs (invalidateAsync en (tens i)) s [(tens i).id] (fun s' => St tens s' (Function.update σ i none)) := by
    cases hh : (invalidateAsync en (tens i) : M (List (Task1 ℝ))) with
    | error e => rw [hh] at e1; simp [seqAsync] at e1
    | ok ts =>
      rw [hh] at e1
      simp only [seqAsync, M.bind_ok, List.append_nil] at e1
      cases e1
      exact ⟨_, s1, rfl, e2, e3, e4⟩
  exact Runs.cons' h2 (by simpa using hi) fun s' hc hq => k s' (h.keep sep hc hq)

theorem LSt.skip {ps : List (M (List (Task1 ℝ)))} {ids : List Nat} {P : Store ℝ → Prop} (k : Runs (seqAsync ps) s ids P) :
    Runs (seqAsync (.ok [] :: ps)) s ids P := by
  refine Runs.cons' (Runs.skip (ids := []) (P := fun s' => s' = s) rfl) (by simp) fun s' _ hq => ?_
  subst hq; exact k

theorem LSt.when_true {b : Bool} (hb : b = true) {p : M (List (Task1 ℝ))} {ps : List (M (List (Task1 ℝ)))} {ids : List Nat} {P : Store ℝ → Prop}
    (k : Runs (seqAsync (p :: ps)) s ids P) : Runs (seqAsync (whenAsync b p :: ps)) s ids P := by
  rwa [hb, whenAsync, if_pos rfl]

/-- Accumulation of a gradient. -/
theorem LSt.acc (sep : LSep ins gs tens) (h : LSt ins gs tens s env g σ) {m : Moments} (hm : m ∈ gs) {c : List Nat → ℝ} {p : M (List (Task1 ℝ))}
    (hp : m.gradRequired = true → m.grad.Ready s → m.grad.Holds s (g m.value.id) → Computes p s m.grad (fun J => g m.value.id J + c J))
    {ps : List (M (List (Task1 ℝ)))} {ids : List Nat} (hi : ∀ i ∈ m.gradIds, i ∈ ids) {P : Store ℝ → Prop}
    (k : ∀ s', LSt ins gs tens s' env (fun i J => g i J + if i = m.value.id then c J else 0) σ → Runs (seqAsync ps) s' ids P) :
    Runs (seqAsync (whenAsync m.gradRequired p :: ps)) s ids P := by
  refine Runs.cons' (Moments.when_runs (m := m) fun hr => hp hr (h.grads m hm hr).1 (h.grads m hm hr).2) hi fun s' hc hq => k s' ⟨?_, ?_, ?_⟩
  · refine h.vals.changed hc fun m' hm' e => ?_
    unfold Moments.gradIds at e
    split at e
    · rename_i hr
      exact sep.vg m' hm' m hm hr (by simpa using e)
    · simp at e
  · intro m' hm'
    by_cases e : m' = m
    · subst e
      simpa using hq
    · have hv : m'.value.id ≠ m.value.id := fun e' => e (sep.vv m' hm' m hm e')
      simp only [if_neg hv, add_zero]
      intro hr'
      have : m'.grad.id ∉ m.gradIds := by
        unfold Moments.gradIds
        split
        · rename_i hr
          intro e'
          exact e (sep.gg m' hm' m hm hr' hr (by simpa using e'))
        · simp
      exact ⟨hc.ready (h.grads m' hm' hr').1 this, hc.holds (h.grads m' hm' hr').2 this⟩
  · refine h.st.changed hc fun i e => ?_
    unfold Moments.gradIds at e
    split at e
    · rename_i hr
      exact sep.gt m hm hr i ((by simpa using e : (tens i).id = m.grad.id).symm)
    · simp at e

/-- The scalar product with a gradient of one tensor. -/
theorem dotGrads_single (hn : (ins.map fun m => m.value.id).Nodup) {m : Moments} (hm : m ∈ ins) (c : List Nat → ℝ) (h : Env) :
    dotGrads ins (fun i J => if i = m.value.id then c J else 0) h = if m.gradRequired then ∑ J ∈ box m.value.shape, c J * h m.value.id J else 0 := by
  unfold dotGrads
  rw [sum_map_single hn hm]
  · simp
  · intro m' _ e
    simp [e]

end NNTile
