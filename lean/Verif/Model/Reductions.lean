import Verif.Model.ReduxRun
import Verif.Model.BaseModel
import Verif.Model.Loss
/-!
# Registration of the reduction codelets by the constructors of layers

A gradient which is not required may be `None`; its registration (`layer/linear.py:69-70`) is left out here, no task uses that gradient. The value of a mask is a real number.
-/
namespace NNTile
variable {α : Type}

/-- `set_reduction_add`, `set_reduction_hypot`, `set_reduction_maxsumexp`, `include/nntile/tensor/tensor.hh:164-196`. -/
inductive ReduxKind where
  | add
  | hypot
  | maxsumexp
  deriving DecidableEq

/-- The codelets registered by them. -/
def ReduxKind.cl [FP α] : ReduxKind → ReduxCl α
  | .add => reduxAdd
  | .hypot => reduxHypot
  | .maxsumexp => reduxMse

/-- The gradient, if it is required. -/
def Moments.reductionGrad (m : Moments) : List (Tensor × ReduxKind) := if m.gradRequired then [(m.grad, .add)] else []

/-- `Linear.__init__`, `wrappers/python/nntile/layer/linear.py:61-74`. -/
def Linear.reductions (l : Linear) : List (Tensor × ReduxKind) :=
  (match l.b with
  | some b => b.reductionGrad
  | none => []) ++ l.x.reductionGrad ++ [(l.y.value, .add)] ++ l.w.reductionGrad

/-- `AddSlice.__init__`, `wrappers/python/nntile/layer/add_slice.py:26-27`; `grad_required` is not looked at. -/
def AddSliceLayer.reductions (l : AddSliceLayer) : List (Tensor × ReduxKind) := [(l.y.grad, .add)]

/-- `Embedding.__init__`, `wrappers/python/nntile/layer/embedding.py:33-34`. -/
def EmbeddingLayer.reductions (l : EmbeddingLayer) : List (Tensor × ReduxKind) := [(l.w.grad, .add)]

/-- `LayerNorm.__init__`, `wrappers/python/nntile/layer/layer_norm.py:47-56`. -/
def LayerNorm.reductions (l : LayerNorm α) : List (Tensor × ReduxKind) := [(l.gamma.grad, .add), (l.beta.grad, .add), (l.mean, .add), (l.invStddev, .hypot)]

/-- `Attention.__init__`, `wrappers/python/nntile/layer/attention.py:68-126`; `FlashAttention.__init__`, `wrappers/python/nntile/layer/flash_attention.py:71-129`, registers the same. -/
def Attention.reductions (l : Attention α) : List (Tensor × ReduxKind) :=
  ([l.biasQ, l.biasK, l.biasV, l.biasOut].filterMap id).flatMap Moments.reductionGrad ++
  l.xq.reductionGrad ++ l.xk.reductionGrad ++ l.xv.reductionGrad ++ [(l.y.value, .add)] ++
  l.wq.reductionGrad ++ l.wk.reductionGrad ++ l.wv.reductionGrad ++ l.w.reductionGrad ++
  [(l.qT.value, .add)] ++ l.q.reductionGrad ++ [(l.kT.value, .add)] ++ l.k.reductionGrad ++ [(l.vT.value, .add)] ++ l.v.reductionGrad ++
  [(l.a.value, .add)] ++ l.a.reductionGrad ++ [(l.aMaxsumexp, .maxsumexp), (l.aSumprodSlice, .add), (l.b.value, .add)] ++ l.bT.reductionGrad

/-- What the constructor of the layer registers. -/
def PyLayer.reductions : PyLayer α → List (Tensor × ReduxKind)
  | .act _ => []
  | .add _ => []
  | .addSlice l => l.reductions
  | .embedding l => l.reductions
  | .linear l => l.reductions
  | .layerNorm l => l.reductions
  | .attention l => l.reductions
  | .flash l => l.reductions

/-- What is registered when all layers of the model are constructed. -/
def BaseModel.reductions (m : BaseModel α) : List (Tensor × ReduxKind) := m.layers.flatMap PyLayer.reductions

/-- A tile without registered codelets: StarPU stops the program if it needs them. -/
def noCodelets : ReduxCl α := ⟨fun _ => .error (.ub "no initialisation codelet"), fun _ _ => .error (.ub "no accumulation codelet")⟩

/-- What is registered for the tiles of a tensor: the last registration counts, `starpu_data_set_reduction_methods` replaces earlier ones. -/
def kindOf (rs : List (Tensor × ReduxKind)) (h : Handle) : Option ReduxKind := (rs.reverse.find? (fun p => decide (p.1.id = h.1))).map (·.2)

/-- The registered codelets. -/
def registered [FP α] (rs : List (Tensor × ReduxKind)) (h : Handle) : ReduxCl α := match kindOf rs h with
  | some k => k.cl
  | none => noCodelets

/-- The tensors of a layer, except the tensor of integers of an embedding and the tensor of pairs of attention. A gradient which is not required is arbitrary. -/
def PyLayer.temporaries : PyLayer α → List Tensor
  | .layerNorm l => [l.tmpYValue, l.tmpYGrad, l.mean, l.invStddev]
  | .attention l | .flash l => l.aSumprodSlice :: [l.qT, l.q, l.kT, l.k, l.vT, l.v, l.a, l.b, l.bT].flatMap (fun m => [m.value, m.grad])
  | _ => []

/-- All of them. -/
def PyLayer.tensors (l : PyLayer α) : List Tensor := (l.inputs ++ l.output :: l.parameters).flatMap (fun m => [m.value, m.grad]) ++ l.temporaries

/-- `CrossEntropy.__init__`, `wrappers/python/nntile/loss/crossentropy.py:34-38`. -/
def CrossEntropy.reductions (l : CrossEntropy α) : List (Tensor × ReduxKind) := [(l.val, .add), (l.maxsumexp, .maxsumexp)]

/-- The tensors of a loss, except the tensor of integers and the tensor of pairs. -/
def CrossEntropy.tensors (l : CrossEntropy α) : List Tensor := [l.modelOutput.value, l.modelOutput.grad, l.logsumexp, l.val]

/-- What is registered when a model and losses are constructed. -/
def netReductions (m : BaseModel α) (L : List (CrossEntropy α)) : List (Tensor × ReduxKind) := m.reductions ++ L.flatMap CrossEntropy.reductions

/-- Their tensors, except those of integers and of pairs. -/
def reduxTensors (m : BaseModel α) (L : List (CrossEntropy α)) : List Tensor := m.layers.flatMap PyLayer.tensors ++ L.flatMap CrossEntropy.tensors

/-- A task of `total_sum_accum` accesses the value of the loss in mode `STARPU_RW | STARPU_COMMUTE`, `src/starpu/total_sum_accum.cc:138`: such tasks do not wait for each other. It is
replaced by a task in mode `REDUX`, which can be executed in all these ways (and in others: with replicas). -/
def Task1.commuting (t : Task1 α) : Task1 α := if t.codelet = "total_sum_accum" then { t with mode := .REDUX } else t

end NNTile
