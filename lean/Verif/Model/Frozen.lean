import Verif.Model.BaseModel
import Verif.Model.Loss
/-!
# Gradients that are `None`

`TensorMoments` may have `None` instead of a gradient. The constructors of the layers call `set_reduction_add` of gradients (the reductions which they register are described in
`Model/Reductions.lean`; here only the access to the attribute of `None` counts). Other arguments are as in the models of the layers.
-/
namespace NNTile
variable {α : Type}

/-- `TensorMoments`, `wrappers/python/nntile/tensor.py:30-39`, where the gradient may be missing. -/
structure OptMoments where
  value : Tensor
  grad : Option Tensor
  gradRequired : Bool

/-- The object as the methods of the layers see it: without a gradient the field `grad` of `Moments` is meaningless. -/
def OptMoments.toMoments (m : OptMoments) : Moments := ⟨m.value, m.grad.getD m.value, m.gradRequired⟩

/-- Access to a method of the gradient: `None` has none. -/
def OptMoments.useGrad (m : OptMoments) : M Unit := throwIf (m.grad = none) "AttributeError"

/-- As `useGrad`, if there is a bias. -/
def useBias (b : Option OptMoments) : M Unit :=
  match b with
  | some b => b.useGrad
  | none => .ok ()

/-- `Act.__init__`, `wrappers/python/nntile/layer/act.py:34-44`. -/
def Act.initOpt (x : OptMoments) (y : Moments) (kind : ActKind) : M Act := .ok ⟨x.toMoments, y, kind⟩

/-- `Linear.__init__`, `wrappers/python/nntile/layer/linear.py:41-83`. -/
def Linear.initOpt (side : Side) (transX : TransOp) (x : OptMoments) (y : Moments) (w : OptMoments) (ndim : Int) (b : Option OptMoments) (redux : Bool) : M Linear := do
  throwIf (ndim ≤ 0) "ndim must be positive integer"
  useBias b
  w.useGrad
  .ok ⟨side, transX, x.toMoments, y, w.toMoments, ndim, b.map OptMoments.toMoments, redux⟩

/-- `AddSlice.__init__`, `wrappers/python/nntile/layer/add_slice.py:21-33`. -/
def AddSliceLayer.initOpt (x y : OptMoments) (u : Moments) (axis : Int) (redux : Bool) : M AddSliceLayer := do
  y.useGrad
  .ok ⟨x.toMoments, y.toMoments, u, axis, redux⟩

/-- `Embedding.__init__`, `wrappers/python/nntile/layer/embedding.py:26-35`. -/
def EmbeddingLayer.initOpt (x : Tensor) (y : Moments) (w : OptMoments) (axis : Int) : M EmbeddingLayer := do
  w.useGrad
  .ok ⟨x, y, w.toMoments, axis⟩

/-- `LayerNorm.__init__`, `wrappers/python/nntile/layer/layer_norm.py:38-63`. -/
def LayerNorm.initOpt [FP α] (x : OptMoments) (y : Moments) (gamma beta : OptMoments) (tmpYValue tmpYGrad mean invStddev : Tensor) (axis : Int) (eps : α) (redux : Bool) :
    M (LayerNorm α) := do
  gamma.useGrad
  beta.useGrad
  LayerNorm.init x.toMoments y gamma.toMoments beta.toMoments tmpYValue tmpYGrad mean invStddev axis eps redux

/-- The arguments of the constructors of `Attention` and `FlashAttention` which are inputs or parameters. -/
structure AttnArgs where
  xq : OptMoments
  xk : OptMoments
  xv : OptMoments
  wq : OptMoments
  wk : OptMoments
  wv : OptMoments
  w : OptMoments
  biasQ : Option OptMoments
  biasK : Option OptMoments
  biasV : Option OptMoments
  biasOut : Option OptMoments

/-- `Attention.__init__`, `wrappers/python/nntile/layer/attention.py:68-145`, and the same statements of `FlashAttention.__init__`, `flash_attention.py:71-140`. `l` has the other
attributes. -/
def Attention.initOpt (p : AttnArgs) (l : Attention α) : M (Attention α) := do
  useBias p.biasQ
  useBias p.biasK
  useBias p.biasV
  useBias p.biasOut
  p.xq.useGrad
  p.xk.useGrad
  p.xv.useGrad
  p.wq.useGrad
  p.wk.useGrad
  p.wv.useGrad
  p.w.useGrad
  Attention.init { l with
    xq := p.xq.toMoments, xk := p.xk.toMoments, xv := p.xv.toMoments, wq := p.wq.toMoments, wk := p.wk.toMoments, wv := p.wv.toMoments, w := p.w.toMoments,
    biasQ := p.biasQ.map OptMoments.toMoments, biasK := p.biasK.map OptMoments.toMoments, biasV := p.biasV.map OptMoments.toMoments, biasOut := p.biasOut.map OptMoments.toMoments }

/-- `CrossEntropy.calc_async`, `wrappers/python/nntile/loss/crossentropy.py:83-101`: if line 96 raises an exception, the tasks have been submitted already.
`l.modelOutput` is replaced by an output of the model whose gradient may be missing. Line 96 calls `wont_use` of the gradient. -/
def CrossEntropy.calcOpt [FP α] (asIdx : α → Int) (l : CrossEntropy α) (out : OptMoments) : M (List (Task1 α)) := do
  let tasks ← CrossEntropy.calcAsync asIdx { l with modelOutput := out.toMoments }
  out.useGrad
  .ok tasks

/-- `BaseModel.clear_parameters_grads` and `clear_activations_grads` for one element, `wrappers/python/nntile/model/base_model.py:56-65`. -/
def OptMoments.clearGrad [FP α] (m : OptMoments) : M (List (Task1 α)) :=
  match m.grad with
  | some g => whenAsync m.gradRequired (clearAsync g)
  | none => .ok []

end NNTile
