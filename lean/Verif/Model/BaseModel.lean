import Verif.Model.Linear
import Verif.Model.LayerNorm
import Verif.Model.SimpleLayers
import Verif.Model.Attention
import Verif.Model.FlashLayer
/-!
# Model of `BaseModel`, `wrappers/python/nntile/model/base_model.py`

A layer is one of the modelled layers. `asIdx` says how integer tensors are read, `invalidate` is the switch explained at `invalidateAsync`. FlashAttention is
modelled as in this commit only, without invalidation of tensors.
-/
namespace NNTile
variable {α : Type}

/-- A layer object. -/
inductive PyLayer (α : Type) where
  | act (l : Act)
  | add (l : AddLayer)
  | addSlice (l : AddSliceLayer)
  | embedding (l : EmbeddingLayer)
  | linear (l : Linear)
  | layerNorm (l : LayerNorm α)
  | attention (l : Attention α)
  | flash (l : Attention α)

/-- Dynamic dispatch of `forward_async`. -/
def PyLayer.forwardAsync [FP α] (asIdx : α → Int) (invalidate : Bool) : PyLayer α → M (List (Task1 α))
  | .act l => l.forwardAsync
  | .add l => l.forwardAsync
  | .addSlice l => l.forwardAsync
  | .embedding l => l.forwardAsync asIdx
  | .linear l => l.forwardAsync
  | .layerNorm l => l.forwardAsync
  | .attention l => l.forwardAsync asIdx invalidate
  | .flash l => l.flashForwardAsync asIdx false

/-- Dynamic dispatch of `backward_async`. -/
def PyLayer.backwardAsync [FP α] (asIdx : α → Int) (invalidate : Bool) : PyLayer α → M (List (Task1 α))
  | .act l => l.backwardAsync
  | .add l => l.backwardAsync
  | .addSlice l => l.backwardAsync
  | .embedding l => l.backwardAsync asIdx
  | .linear l => l.backwardAsync
  | .layerNorm l => l.backwardAsync invalidate
  | .attention l => l.backwardAsync asIdx invalidate
  | .flash l => l.flashBackwardAsync asIdx false

/-- `activations_input`, the first list given to `BaseLayer.__init__`, `wrappers/python/nntile/layer/base_layer.py:28-35`. The tensor of integers of an embedding has no
gradient. -/
def PyLayer.inputs : PyLayer α → List Moments
  | .act l => [l.x]
  | .add l => [l.x, l.y]
  | .addSlice l => [l.x, l.y]
  | .embedding l => [⟨l.x, l.x, false⟩]
  | .linear l => [l.x]
  | .layerNorm l => [l.x]
  | .attention l => [l.xq, l.xk, l.xv]
  | .flash l => [l.xq, l.xk, l.xv]

/-- `activations_output`, the second list given to `BaseLayer.__init__`, `wrappers/python/nntile/layer/base_layer.py:28-35`; called at `act.py:39`, `add.py:27`,
`add_slice.py:23`, `embedding.py:29`, `linear.py:57-63`, `layer_norm.py:43-44`. -/
def PyLayer.output : PyLayer α → Moments
  | .act l => l.y
  | .add l => l.res
  | .addSlice l => l.u
  | .embedding l => l.y
  | .linear l => l.y
  | .layerNorm l => l.y
  | .attention l => l.y
  | .flash l => l.y

/-- `parameters`, the third list given to `BaseLayer.__init__`. -/
def PyLayer.parameters : PyLayer α → List Moments
  | .act _ => []
  | .add _ => []
  | .addSlice _ => []
  | .embedding l => [l.w]
  | .linear l => l.w :: l.b.toList
  | .layerNorm l => [l.gamma, l.beta]
  | .attention l => l.params
  | .flash l => l.params

/-- Elements of the Python lists `activations` and `parameters`: objects of class `TensorMoments`, or lists of such objects, see `append`. -/
inductive PyEntry where
  | moments (m : Moments)
  | list (l : List Moments)

/-- The attributes, `wrappers/python/nntile/model/base_model.py:20-23`. -/
structure BaseModel (α : Type) where
  activations : List PyEntry
  parameters : List PyEntry
  layers : List (PyLayer α)

/-- `BaseModel.__init__`, `wrappers/python/nntile/model/base_model.py:26-32`. -/
def BaseModel.init (activations : List Moments) (layers : List (PyLayer α)) : BaseModel α :=
  ⟨activations.map .moments, layers.flatMap fun l => l.parameters.map .moments, layers⟩

/-- `BaseModel.append`, `wrappers/python/nntile/model/base_model.py:35-38`: `list.append` adds the list `activations_output` as one element. -/
def BaseModel.append (m : BaseModel α) (l : PyLayer α) : BaseModel α :=
  ⟨m.activations ++ [.list [l.output]], m.parameters ++ [.list l.parameters], m.layers ++ [l]⟩

/-- `BaseModel.forward_async`, `wrappers/python/nntile/model/base_model.py:41-43`. -/
def BaseModel.forwardAsync [FP α] (asIdx : α → Int) (invalidate : Bool) (m : BaseModel α) : M (List (Task1 α)) :=
  seqAsync (m.layers.map (PyLayer.forwardAsync asIdx invalidate))

/-- `BaseModel.backward_async`, `wrappers/python/nntile/model/base_model.py:46-48`. -/
def BaseModel.backwardAsync [FP α] (asIdx : α → Int) (invalidate : Bool) (m : BaseModel α) : M (List (Task1 α)) :=
  seqAsync (m.layers.reverse.map (PyLayer.backwardAsync asIdx invalidate))

/-- `if t.grad is not None and t.grad_required: clear_async(t.grad)`: a list has no attribute `grad`. -/
def PyEntry.clearGrad [FP α] : PyEntry → M (List (Task1 α))
  | .moments m => whenAsync m.gradRequired (clearAsync m.grad)
  | .list _ => .error (.throw "AttributeError")

/-- `BaseModel.clear_parameters_grads`, `wrappers/python/nntile/model/base_model.py:56-59`. -/
def BaseModel.clearParametersGrads [FP α] (m : BaseModel α) : M (List (Task1 α)) := seqAsync (m.parameters.map PyEntry.clearGrad)

/-- `BaseModel.clear_activations_grads`, `wrappers/python/nntile/model/base_model.py:62-65`. -/
def BaseModel.clearActivationsGrads [FP α] (m : BaseModel α) : M (List (Task1 α)) := seqAsync (m.activations.map PyEntry.clearGrad)

/-- `BaseModel.clear_gradients`, `wrappers/python/nntile/model/base_model.py:51-53`. -/
def BaseModel.clearGradients [FP α] (m : BaseModel α) : M (List (Task1 α)) := seqAsync [m.clearParametersGrads, m.clearActivationsGrads]

end NNTile
