import Verif.Model.Frozen
import Verif.Lib.Frozen
import Verif.Lib.Store
import Verif.Props.C11
import Verif.Props.C41
/-!
# C81: gradients that are not required

A tensor with `grad_required = False` need not have a gradient, and nothing is done with it. This holds for activations, linear layers, attention and FlashAttention layers and for
clearing the gradients of a model. It does not hold for other layers and for the optimizers, and the constructors of layers do not accept parameters without gradients.
-/
namespace NNTile

section
variable {α : Type} [FP α]

/-- Forward and backward passes of a layer do not depend on gradients of inputs and parameters that are not required: with any tensors (or nothing) in their place the same tasks are
submitted. -/
theorem C81_layer_partial {l l' : PyLayer α} (h : l.Alike l') (asIdx : α → Int) (invalidate : Bool) :
    l.forwardAsync asIdx invalidate = l'.forwardAsync asIdx invalidate ∧ l.backwardAsync asIdx invalidate = l'.backwardAsync asIdx invalidate :=
  ⟨h.forward asIdx invalidate, h.backward asIdx invalidate⟩

/-- The same for models. -/
theorem C81_model_partial {m m' : BaseModel α} (h : m.Alike m') (asIdx : α → Int) (invalidate : Bool) :
    m.forwardAsync asIdx invalidate = m'.forwardAsync asIdx invalidate ∧ m.backwardAsync asIdx invalidate = m'.backwardAsync asIdx invalidate ∧
    m.clearGradients = m'.clearGradients := by
  refine ⟨?_, ?_, ?_⟩
  · unfold BaseModel.forwardAsync
    rw [Forall₂.map_eq (fun _ _ h => h.forward asIdx invalidate) h.layers]
  · unfold BaseModel.backwardAsync
    rw [List.map_reverse, List.map_reverse, Forall₂.map_eq (fun _ _ h => h.backward asIdx invalidate) h.layers]
  · unfold BaseModel.clearGradients BaseModel.clearParametersGrads BaseModel.clearActivationsGrads
    rw [Forall₂.map_eq (fun _ _ h => h.clear) h.parameters, Forall₂.map_eq (fun _ _ h => h.clear) h.activations]

/-- The loss does not look at a gradient that is not required either, as long as there is one. -/
theorem C81_loss_partial (l : CrossEntropy α) {m m' : Moments} (h : m.Alike m') (asIdx : α → Int) :
    CrossEntropy.calcAsync asIdx { l with modelOutput := m } = CrossEntropy.calcAsync asIdx { l with modelOutput := m' } := by
  unfold CrossEntropy.calcAsync
  rw [h.when (fun g => softmaxAsync l.maxsumexp m.value l.scale g 0), h.when (fun g => subtractIndexedAsync asIdx l.scale l.y g)]
  simp only [h.1]

/-- An activation of a tensor without gradient: nothing is done in the backward pass. -/
theorem C81_act_none_partial (x : OptMoments) (hx : x.gradRequired = false) (y : Moments) (kind : ActKind) :
    ∃ l, Act.initOpt x y kind = .ok l ∧ l.backwardAsync (α := α) = .ok [] := by
  refine ⟨_, rfl, ?_⟩
  unfold Act.backwardAsync
  simp only [OptMoments.toMoments, hx, whenAsync, seqAsync]
  rfl

/-- A linear layer whose input has no gradient is constructed, and does what the layer does whose input has a gradient that is not required. -/
theorem C81_linear_none_partial (side : Side) (transX : TransOp) (X g : Tensor) (y : Moments) (w : OptMoments) (hw : w.grad ≠ none) {ndim : Int} (hn : 0 < ndim)
    (b : Option OptMoments) (hb : ∀ b' ∈ b, b'.grad ≠ none) (redux : Bool) :
    ∃ l l', Linear.initOpt side transX ⟨X, none, false⟩ y w ndim b redux = .ok l ∧ Linear.initOpt side transX ⟨X, some g, false⟩ y w ndim b redux = .ok l' ∧
      l.forwardAsync (α := α) = l'.forwardAsync ∧ l.backwardAsync (α := α) = l'.backwardAsync := by
  have hn' : ¬ ndim ≤ 0 := by omega
  have ub : useBias b = .ok () := by
    cases b with
    | none => rfl
    | some b => exact throwIf_neg (hb b rfl)
  have uw : w.useGrad = .ok () := throwIf_neg hw
  have h : Linear.Alike ⟨side, transX, OptMoments.toMoments ⟨X, none, false⟩, y, w.toMoments, ndim, b.map OptMoments.toMoments, redux⟩
      ⟨side, transX, OptMoments.toMoments ⟨X, some g, false⟩, y, w.toMoments, ndim, b.map OptMoments.toMoments, redux⟩ :=
    ⟨⟨rfl, rfl, nofun⟩, Moments.Alike.refl _, BiasAlike.refl _, rfl⟩
  refine ⟨_, _, ?_, ?_, h.forward, h.backward⟩
  · rw [Linear.initOpt, throwIf_neg hn', M.bind_ok, ub, M.bind_ok, uw, M.bind_ok]
  · rw [Linear.initOpt, throwIf_neg hn', M.bind_ok, ub, M.bind_ok, uw, M.bind_ok]

/-- Clearing the gradients of a model skips a missing gradient and a gradient that is not required. -/
theorem C81_clear_none_partial (m : OptMoments) (h : m.grad = none ∨ m.gradRequired = false) : m.clearGrad (α := α) = .ok [] := by
  unfold OptMoments.clearGrad
  rcases h with h | h
  · rw [h]
  · cases m.grad <;> simp [h, whenAsync]

/-- **Refuted: parameters without gradients.** The constructors raise `AttributeError` for a parameter without a gradient, and the attention layers and `AddSlice` also for inputs. -/
theorem C81_none_refuted :
    (∀ (side : Side) (transX : TransOp) (x : OptMoments) (y : Moments) (w : OptMoments) (ndim : Int) (b : Option OptMoments) (redux : Bool),
      0 < ndim → (w.grad = none ∨ ∃ b' ∈ b, b'.grad = none) → Linear.initOpt side transX x y w ndim b redux = .error (.throw "AttributeError")) ∧
    (∀ (x y : OptMoments) (u : Moments) (axis : Int) (redux : Bool), y.grad = none → AddSliceLayer.initOpt x y u axis redux = .error (.throw "AttributeError")) ∧
    (∀ (x : Tensor) (y : Moments) (w : OptMoments) (axis : Int), w.grad = none → EmbeddingLayer.initOpt x y w axis = .error (.throw "AttributeError")) ∧
    (∀ (x : OptMoments) (y : Moments) (gamma beta : OptMoments) (t1 t2 t3 t4 : Tensor) (axis : Int) (eps : α) (redux : Bool),
      gamma.grad = none ∨ beta.grad = none → LayerNorm.initOpt x y gamma beta t1 t2 t3 t4 axis eps redux = .error (.throw "AttributeError")) ∧
    (∀ (p : AttnArgs) (l : Attention α), (∃ m ∈ [p.xq, p.xk, p.xv, p.wq, p.wk, p.wv, p.w], m.grad = none) → Attention.initOpt p l = .error (.throw "AttributeError")) := by
  have use : ∀ m : OptMoments, m.useGrad = .ok () ∨ m.useGrad = .error (.throw "AttributeError") := by
    intro m
    unfold OptMoments.useGrad
    by_cases h : m.grad = none
    · exact .inr (throwIf_pos h)
    · exact .inl (throwIf_neg h)
  have none : ∀ m : OptMoments, m.grad = none → m.useGrad = .error (.throw "AttributeError") := fun m h => throwIf_pos h
  have bias : ∀ b, useBias b = .ok () ∨ useBias b = .error (.throw "AttributeError") := by
    intro b
    cases b with
    | none => exact .inl rfl
    | some b => exact use b
  refine ⟨?_, ?_, ?_, ?_, ?_⟩
  · rintro side transX x y w ndim b redux hn h
    rw [Linear.initOpt, throwIf_neg (by omega), M.bind_ok]
    rcases h with h | ⟨b', hb, h⟩
    · rcases bias b with e | e <;> rw [e]
      · rw [M.bind_ok, none w h]; rfl
      · rfl
    · cases b with
      | none => cases hb
      | some b =>
        rcases Option.mem_some_iff.mp hb with rfl
        rw [useBias, none b h]; rfl
  · intro x y u axis redux h
    rw [AddSliceLayer.initOpt, none y h]; rfl
  · intro x y w axis h
    rw [EmbeddingLayer.initOpt, none w h]; rfl
  · intro x y gamma beta t1 t2 t3 t4 axis eps redux h
    rw [LayerNorm.initOpt]
    rcases h with h | h
    · rw [none gamma h]; rfl
    · rcases use gamma with e | e <;> rw [e]
      · rw [M.bind_ok, none beta h]; rfl
      · rfl
  · rintro p l ⟨m, hm, h⟩
    have step : ∀ {β : Type} {u : M Unit} {k : Unit → M β}, (u = .ok () ∨ u = .error (.throw "AttributeError")) → (u = .ok () → k () = .error (.throw "AttributeError")) →
        (u >>= k) = .error (.throw "AttributeError") := by
      intro β u k h1 h2
      rcases h1 with e | e
      · rw [e, M.bind_ok, h2 e]
      · rw [e]; rfl
    have no : ∀ m : OptMoments, m.grad = Option.none → m.useGrad ≠ .ok () := by
      intro m h e
      rw [none m h] at e
      cases e
    rw [Attention.initOpt]
    refine step (bias _) fun _ => step (bias _) fun _ => step (bias _) fun _ => step (bias _) fun _ => step (use _) fun e1 => step (use _) fun e2 => step (use _) fun e3 =>
      step (use _) fun e4 => step (use _) fun e5 => step (use _) fun e6 => step (use _) fun e7 => ?_
    simp only [List.mem_cons, List.not_mem_nil, or_false] at hm
    rcases hm with rfl | rfl | rfl | rfl | rfl | rfl | rfl
    · exact absurd e1 (no _ h)
    · exact absurd e2 (no _ h)
    · exact absurd e3 (no _ h)
    · exact absurd e4 (no _ h)
    · exact absurd e5 (no _ h)
    · exact absurd e6 (no _ h)
    · exact absurd e7 (no _ h)

/-- **Refuted: loss without gradient.** `calc_async` of the cross-entropy loss never succeeds if the output of the model has no gradient, although `grad_required` is looked at. -/
theorem C81_loss_none_refuted (l : CrossEntropy α) (asIdx : α → Int) (out : OptMoments) (h : out.grad = none) : ∃ e, l.calcOpt asIdx out = .error e := by
  unfold CrossEntropy.calcOpt
  cases CrossEntropy.calcAsync asIdx { l with modelOutput := out.toMoments } with
  | error e => exact ⟨e, rfl⟩
  | ok t =>
    rw [M.bind_ok, OptMoments.useGrad, throwIf_pos h]
    exact ⟨_, rfl⟩

/-- **Refuted: optimizers.** A step of any optimizer does the same whether the gradients of the parameters are required or not. -/
theorem C81_optimizers_refuted {params params' : List Moments} (h : List.Forall₂ Moments.SameTensors params params') (invalidate : Bool) (k : Nat) :
    (∀ o : SGD α, (PyOpt.sgd { o with params := params }).step invalidate k = (PyOpt.sgd { o with params := params' }).step invalidate k) ∧
    (∀ o : Adam α, (PyOpt.adam { o with params := params }).step invalidate k = (PyOpt.adam { o with params := params' }).step invalidate k) ∧
    (∀ o : Fused α, (PyOpt.fusedAdam { o with params := params }).step invalidate k = (PyOpt.fusedAdam { o with params := params' }).step invalidate k) ∧
    (∀ o : Fused α, (PyOpt.fusedAdamW { o with params := params }).step invalidate k = (PyOpt.fusedAdamW { o with params := params' }).step invalidate k) := by
  refine ⟨fun o => ?_, fun o => ?_, fun o => ?_, fun o => ?_⟩
  · simp only [PyOpt.step, SGD.stepAsync]
    rw [zipIdx_map_eq (R := Moments.SameTensors) (f := fun p i => SGD.stepParam { o with params := params } k p i) ?_ h]
    · rfl
    · intro a b i hab
      simp only [SGD.stepParam, hab.1, hab.2]
  · simp only [PyOpt.step, Adam.stepAsync]
    rw [zipIdx_map_eq (R := Moments.SameTensors) (f := fun p i => Adam.stepParam { o with params := params } (k + 1) p i) ?_ h]
    · rfl
    · intro a b i hab
      simp only [Adam.stepParam, hab.1, hab.2]
  all_goals
    simp only [PyOpt.step, Fused.adamStep, Fused.adamwStep, Fused.step]
    refine congrArg seqTasks ?_
    generalize 0 = n
    induction h generalizing n with
    | nil => rfl
    | cons hab _ ih =>
      rw [List.zipIdx_cons, List.zipIdx_cons, List.map_cons, List.map_cons]
      simp only [hab.1, hab.2]
      exact congrArg _ (ih (n + 1))

end

/-- One number, with a gradient that is not required. -/
def frozenExample : Moments := ⟨⟨0, [1], [1]⟩, ⟨1, [1], [1]⟩, false⟩

/-- **Refuted: a frozen parameter.** A step of SGD with the learning rate 1 changes a parameter whose gradient is not required from 0 to −1, if its gradient is 1. -/
theorem C81_sgd_refuted : ∃ (s : Store ℝ) (tasks : List (Task ℝ)) (s' : Store ℝ),
    frozenExample.gradRequired = false ∧ frozenExample.value.Holds s (fun _ => 0) ∧ frozenExample.grad.Holds s (fun _ => 1) ∧
    (PyOpt.sgd ⟨[frozenExample], false, 1, 0, 0, 0, []⟩).step false 0 = .ok tasks ∧ runAll tasks s = .ok s' ∧ frozenExample.value.Holds s' (fun _ => -1) := by
  let o : SGD ℝ := ⟨[frozenExample], false, 1, 0, 0, 0, []⟩
  have fit : o.Fits := by
    refine ⟨?_, ?_, ?_, ?_⟩ <;> simp [o, frozenExample, paramTensors]
  have hT := storeOf_spec (α := ℝ) [(⟨0, [1], [1]⟩, fun _ => 0), (⟨1, [1], [1]⟩, fun _ => 1)] (by simp [Tensor.WF]) (by simp)
  generalize storeOf _ = s at hT
  simp only [List.forall_mem_cons, List.not_mem_nil, IsEmpty.forall_iff, implies_true, and_true] at hT
  obtain ⟨h0, h1⟩ := hT
  have hc := C41_sgd fit
  have ready : AllReady (paramTensors o.params) s := by
    intro T hT
    simp only [o, paramTensors, frozenExample, List.flatMap_cons, List.flatMap_nil, List.append_nil, List.mem_cons, List.not_mem_nil, or_false] at hT
    rcases hT with rfl | rfl
    · exact h0.1
    · exact h1.1
  have vals : ∀ p ∈ o.params, p.value.Holds s ((fun _ _ => 0 : Env) p.value.id) ∧ p.grad.Holds s ((fun _ _ => 1 : Env) p.value.id) := by
    intro p hp
    simp only [o, List.mem_cons, List.not_mem_nil, or_false] at hp
    subst hp
    exact ⟨h0.2, h1.2⟩
  obtain ⟨tasks, s', e1, e2, -, -, e3, -⟩ := hc.step 0 s (fun _ _ => 0) (fun _ _ => 1) (fun _ _ => (0 : ℝ)) ready vals (fun h => absurd h (lt_irrefl _))
  refine ⟨s, tasks, s', rfl, h0.2, h1.2, e1, e2, ?_⟩
  have e4 := e3 frozenExample (by simp [SGD.toNet, o])
  have r : ((sgdRule o.lr o.momentum o.weightDecay o.damping o.nesterov).step 0 0 1 (0 : ℝ)).1 = -1 := by
    simp [sgdRule, o]
  intro J hJ
  rw [e4 J hJ]
  exact congrArg some r

/-- **Refuted: residual connections.** The backward pass of the layer `Add` adds to the gradient of an input that is not required (and fails if there is none, since the gradient is an
argument of `add_async`). -/
theorem C81_add_refuted : ∃ (l : AddLayer) (s : Store ℝ) (tasks : List (Task1 ℝ)) (s' : Store ℝ),
    l.x.gradRequired = false ∧ l.x.grad.Holds s (fun _ => 0) ∧ l.res.grad.Holds s (fun _ => 1) ∧
    l.backwardAsync = .ok tasks ∧ runAll1 tasks s = .ok s' ∧ l.x.grad.Holds s' (fun _ => 1) := by
  have hT := storeOf_spec (α := ℝ) [(⟨1, [1], [1]⟩, fun _ => 0), (⟨3, [1], [1]⟩, fun _ => 0), (⟨5, [1], [1]⟩, fun _ => 1)] (by simp [Tensor.WF]) (by simp)
  generalize storeOf _ = s at hT
  simp only [List.forall_mem_cons, List.not_mem_nil, IsEmpty.forall_iff, implies_true, and_true] at hT
  obtain ⟨h1, h3, h5⟩ := hT
  let l : AddLayer := ⟨frozenExample, ⟨⟨2, [1], [1]⟩, ⟨3, [1], [1]⟩, true⟩, ⟨⟨4, [1], [1]⟩, ⟨5, [1], [1]⟩, true⟩⟩
  have : Runs l.backwardAsync s [1, 3] (fun s' => l.x.grad.Holds s' (fun _ => 1)) := by
    have r1 := C11_add_partial h5.1 h1.1 ⟨by decide, rfl, rfl⟩ (1 : ℝ) 1 _ _ h5.2 (fun _ => h1.2) (by simp)
    refine Runs.cons' r1.runs (by simp) fun s1 c1 q1 => ?_
    have r2 := C11_add_partial (c1.ready h5.1 (by decide)) (c1.ready h3.1 (by decide)) ⟨by decide, rfl, rfl⟩ (1 : ℝ) 1 _ _ (c1.holds h5.2 (by decide))
      (fun _ => c1.holds h3.2 (by decide)) (by simp)
    refine Runs.cons' r2.runs (by simp) fun s2 c2 q2 => ?_
    refine Runs.nil fun J hJ => ?_
    refine (c2.holds q1.1 (by decide) J hJ).trans (congrArg some ?_)
    norm_num
  obtain ⟨tasks, s', e1, e2, -, e3⟩ := this
  exact ⟨l, s, tasks, s', rfl, h1.2, h5.2, e1, e2, e3⟩

/-- The same for `AddSlice`, `LayerNorm` and `Embedding`: the flags of inputs and parameters have no effect on the backward pass. -/
theorem C81_flags_refuted {α : Type} [FP α] {x x' y y' : Moments} (hx : x.SameTensors x') (hy : y.SameTensors y') :
    (∀ res, (⟨x, y, res⟩ : AddLayer).backwardAsync (α := α) = (⟨x', y', res⟩ : AddLayer).backwardAsync) ∧
    (∀ u axis redux, (⟨x, y, u, axis, redux⟩ : AddSliceLayer).backwardAsync (α := α) = (⟨x', y', u, axis, redux⟩ : AddSliceLayer).backwardAsync) ∧
    (∀ (l : LayerNorm α) invalidate, { l with x := x, gamma := y }.backwardAsync invalidate = { l with x := x', gamma := y' }.backwardAsync invalidate) ∧
    (∀ (l : LayerNorm α) invalidate, { l with beta := y }.backwardAsync invalidate = { l with beta := y' }.backwardAsync invalidate) ∧
    (∀ (l : EmbeddingLayer) (asIdx : α → Int), { l with w := y }.backwardAsync asIdx = { l with w := y' }.backwardAsync asIdx) := by
  obtain ⟨h1, h2⟩ := hx
  obtain ⟨h3, h4⟩ := hy
  refine ⟨fun res => ?_, fun u axis redux => ?_, fun l i => ?_, fun l i => ?_, fun l a => ?_⟩
  · simp only [AddLayer.backwardAsync, h2, h4]
  · simp only [AddSliceLayer.backwardAsync, h2, h4]
  · simp only [LayerNorm.backwardAsync, h2, h3, h4]
  · simp only [LayerNorm.backwardAsync, h4]
  · simp only [EmbeddingLayer.backwardAsync, h4]

/-! ## The hypotheses are met -/

/-- A frozen linear layer behind an activation: the gradients of its weights and of the input are replaced by other tensors. -/
example : (BaseModel.init (α := ℝ) [frozenExample] [.act ⟨frozenExample, ⟨⟨2, [1], [1]⟩, ⟨3, [1], [1]⟩, true⟩, .relu⟩,
      .linear ⟨.L, .noTrans, ⟨⟨2, [1], [1]⟩, ⟨3, [1], [1]⟩, true⟩, ⟨⟨4, [1], [1]⟩, ⟨5, [1], [1]⟩, true⟩, ⟨⟨6, [1, 1], [1, 1]⟩, ⟨7, [1, 1], [1, 1]⟩, false⟩, 1, none, false⟩]).Alike
    (BaseModel.init [{ frozenExample with grad := frozenExample.value }] [.act ⟨{ frozenExample with grad := frozenExample.value }, ⟨⟨2, [1], [1]⟩, ⟨3, [1], [1]⟩, true⟩, .relu⟩,
      .linear ⟨.L, .noTrans, ⟨⟨2, [1], [1]⟩, ⟨3, [1], [1]⟩, true⟩, ⟨⟨4, [1], [1]⟩, ⟨5, [1], [1]⟩, true⟩, ⟨⟨6, [1, 1], [1, 1]⟩, ⟨9, [1], [1]⟩, false⟩, 1, none, false⟩]) := by
  refine ⟨.cons (.moments ⟨rfl, rfl, fun h => nomatch h⟩) .nil, .cons (.moments ⟨rfl, rfl, fun h => nomatch h⟩) .nil,
    .cons (.act ⟨⟨rfl, rfl, fun h => nomatch h⟩, rfl, rfl⟩) (.cons (.linear ⟨⟨rfl, rfl, fun _ => rfl⟩, ⟨rfl, rfl, fun h => nomatch h⟩, trivial, rfl⟩) .nil)⟩

/-- The constructor of a linear layer with weights that have a gradient and an input that has none. -/
example : (⟨⟨6, [1, 1], [1, 1]⟩, some ⟨7, [1, 1], [1, 1]⟩, true⟩ : OptMoments).grad ≠ none := nofun

end NNTile
