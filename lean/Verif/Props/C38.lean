import Verif.Props.C36
/-!
# C38: a layer added to a model with `append`
-/
namespace NNTile

/-- What does work: forward and backward propagation of a model with a layer added by `append` are those of the model constructed with the longer list of layers, to which
C36 applies. Missing: the lists `activations` and `parameters` are broken, see below. -/
theorem C38_append_partial (asIdx : ℝ → Int) (invalidate : Bool) (acts : List Moments) (layers : List (PyLayer ℝ)) (l : PyLayer ℝ) :
    ((BaseModel.init acts layers).append l).forwardAsync asIdx invalidate = (BaseModel.init (acts ++ [l.output]) (layers ++ [l])).forwardAsync asIdx invalidate ∧
    ((BaseModel.init acts layers).append l).backwardAsync asIdx invalidate =
      (BaseModel.init (acts ++ [l.output]) (layers ++ [l])).backwardAsync asIdx invalidate := ⟨rfl, rfl⟩

private theorem clear_cases (e : PyEntry) : (∃ t, e.clearGrad (α := ℝ) = .ok t) ∨ Throws (e.clearGrad (α := ℝ)) := by
  cases e with
  | list l => exact .inr ⟨_, rfl⟩
  | moments m =>
    refine .inl ?_
    simp only [PyEntry.clearGrad, whenAsync, clearAsync]
    by_cases h : m.gradRequired = true
    · rw [if_pos h, loop0_ok]
      exact ⟨_, rfl⟩
    · rw [if_neg h]
      exact ⟨_, rfl⟩

private theorem clear_throws (L : List PyEntry) {l : List Moments} (hl : .list l ∈ L) : Throws (seqAsync (L.map (PyEntry.clearGrad (α := ℝ)))) := by
  induction L with
  | nil => cases hl
  | cons e L ih =>
    rw [List.map_cons, seqAsync]
    rcases clear_cases e with ⟨t, ht⟩ | ht
    · rw [ht]
      rcases List.mem_cons.1 hl with rfl | hl
      · cases ht
      · exact (ih hl).bind
    · exact ht.bind

/-- **`append` breaks the model**: it puts lists, not tensors, into the lists of activations and parameters. Whatever the model and the layer are, and whatever the
gradients, no method which walks through these lists works any more: clearing of gradients raises an exception. -/
theorem C38_append_refuted (m : BaseModel ℝ) (l : PyLayer ℝ) :
    Throws ((m.append l).clearGradients (α := ℝ)) ∧ Throws ((m.append l).clearParametersGrads (α := ℝ)) ∧ Throws ((m.append l).clearActivationsGrads (α := ℝ)) := by
  have h1 : Throws ((m.append l).clearParametersGrads (α := ℝ)) := clear_throws _ (l := l.parameters) (by simp [BaseModel.append])
  have h2 : Throws ((m.append l).clearActivationsGrads (α := ℝ)) := clear_throws _ (l := [l.output]) (by simp [BaseModel.append])
  refine ⟨?_, h1, h2⟩
  rw [BaseModel.clearGradients, seqAsync]
  exact h1.bind

/-- In contrast, the model constructed with the same layers can be cleared, C36. -/
example (asIdx : ℝ → Int) : ∃ s : Store ℝ, Runs (BaseModel.init [] netExample).clearGradients s [5, 7] (fun _ => True) ∧
    Throws (((BaseModel.init [] [.linear linearExample]).append (.act ⟨linearExample.y, ⟨⟨8, [5, 3], [2, 2]⟩, ⟨9, [5, 3], [2, 2]⟩, true⟩, .relu⟩)).clearGradients (α := ℝ)) := by
  have h := storeOf_spec [(linearExample.w.grad, fun _ => (0 : ℝ)), (⟨7, [3], [2]⟩, fun _ => 0)] (by simp [linearExample, Tensor.WF]) (by simp [linearExample])
  simp only [List.forall_mem_cons, List.not_mem_nil, IsEmpty.forall_iff, implies_true, and_true] at h
  obtain ⟨hw, hb⟩ := h
  generalize storeOf _ = s at hw hb
  refine ⟨s, (C36_clear_gradients (acts := []) (layers := netExample) ?_ ?_).imp ?_ (fun _ _ _ => trivial), (C38_append_refuted _ _).1⟩
  · simp [netExample, PyLayer.parameters, linearExample, Moments.gradIds]
  · simp only [netExample, PyLayer.parameters, List.flatMap_cons, List.flatMap_nil, linearExample, Option.toList, List.append_nil, List.forall_mem_cons,
      List.not_mem_nil, IsEmpty.forall_iff, implies_true, and_true]
    exact ⟨fun _ => hw.1, fun _ => hb.1⟩
  · simp [netExample, PyLayer.parameters, linearExample, Moments.gradIds]

end NNTile
