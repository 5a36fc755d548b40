import Verif.Model.Layer
import Verif.Model.Axpy
import Verif.Model.Copy
import Verif.Model.Nrm2
import Verif.Model.Softmax
import Verif.Model.CrossEntropy
/-!
# Model of the loss functions, `wrappers/python/nntile/loss/`

`wont_use` and the commented out calls do nothing. `asIdx` says how the tensor of integer labels is read.
-/
namespace NNTile
variable {α : Type}

/-- Construction of a tensor with a distribution of `distr` tiles: the constructor requires as many entries as there are tiles,
`include/nntile/tensor/tensor.hh:60-70`. -/
def newTensorD (id : Nat) (shape basetile : List Nat) (distr : Nat) : M Tensor := do
  let T ← newTensor id shape basetile
  throwIf (distr ≠ T.ntiles) "Wrong distribution"
  .ok T

/-! ### `frob.py` -/

/-- The attributes, `wrappers/python/nntile/loss/frob.py:25-31`. -/
structure Frob where
  x : Moments
  y : Tensor
  val : Tensor
  valSqrt : Tensor
  tmp : Tensor

/-- `Frob.generate_simple`, `wrappers/python/nntile/loss/frob.py:41-55`. A tensor has as many entries of its distribution as tiles. -/
def Frob.generate (x : Moments) (next : Nat) : M Frob := do
  let y ← newTensorD next x.value.shape x.value.basetile x.value.ntiles
  let val ← newTensorD (next + 1) [] [] 1
  let valSqrt ← newTensorD (next + 2) [] [] 1
  let tmp ← newTensorD (next + 3) x.value.grid (List.replicate x.value.grid.length 1) x.value.ntiles
  .ok ⟨x, y, val, valSqrt, tmp⟩

/-- `Frob.calc_async`, `wrappers/python/nntile/loss/frob.py:58-75`. -/
def Frob.calcAsync [FP α] (l : Frob) : M (List (Task1 α)) := seqAsync [
  copyAsync l.x.value l.x.grad,
  axpyScalarAsync (-1) l.y l.x.grad,
  nrm2Async 1 l.x.grad 0 l.valSqrt l.tmp,
  copyAsync l.valSqrt l.val,
  prodAsync l.valSqrt l.val,
  scalInplaceAsync (FP.lit (1/2)) l.val]

/-! ### `crossentropy.py` -/

/-- The attributes, `wrappers/python/nntile/loss/crossentropy.py:30-45`. -/
structure CrossEntropy (α : Type) where
  modelOutput : Moments
  y : Tensor
  val : Tensor
  maxsumexp : Tensor
  logsumexp : Tensor
  redux : Bool
  scale : α

/-- `CrossEntropy.generate_simple`, `wrappers/python/nntile/loss/crossentropy.py:48-68`: the distribution of `model_output` is also given to tensors without
the dimension of the classes. -/
def CrossEntropy.generate (modelOutput : Moments) (next : Nat) (redux : Bool) (scale : α) : M (CrossEntropy α) := do
  let shape := pyDrop modelOutput.value.shape 1
  let basetile := pyDrop modelOutput.value.basetile 1
  let labels ← newTensorD next shape basetile modelOutput.value.ntiles
  let maxsumexp ← newTensorD (next + 1) (2 :: shape) (2 :: basetile) modelOutput.value.ntiles
  let val ← newTensorD (next + 2) [] [] 1
  let logsumexp ← newTensorD (next + 3) shape basetile modelOutput.value.ntiles
  .ok ⟨modelOutput, labels, val, maxsumexp, logsumexp, redux, scale⟩

/-- `CrossEntropy.calc_async`, `wrappers/python/nntile/loss/crossentropy.py:83-101`. -/
def CrossEntropy.calcAsync [FP α] (asIdx : α → Int) (l : CrossEntropy α) : M (List (Task1 α)) := seqAsync [
  clearAsync l.maxsumexp,
  maxsumexpAsync l.modelOutput.value l.maxsumexp 0 l.redux,
  logsumexpAsync l.maxsumexp l.logsumexp,
  totalSumAccumAsync asIdx l.scale l.logsumexp l.modelOutput.value l.y l.val,
  whenAsync l.modelOutput.gradRequired (softmaxAsync l.maxsumexp l.modelOutput.value l.scale l.modelOutput.grad 0),
  whenAsync l.modelOutput.gradRequired (subtractIndexedAsync asIdx l.scale l.y l.modelOutput.grad)]

end NNTile
