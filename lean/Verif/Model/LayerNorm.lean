import Verif.Model.Layer
import Verif.Model.Axpy
import Verif.Model.Slice
import Verif.Model.Fiber
import Verif.Model.Reduce
import Verif.Model.Nrm2
/-!
# Model of the layer normalization, `wrappers/python/nntile/layer/layer_norm.py`

The Python scalars `1.0/self.l`, `self.l**0.5`, `eps**0.5` are values of the scalar type here. `wont_use` does nothing. `invalidate` is the switch explained at
`invalidateAsync` (false in the modelled commit).
-/
namespace NNTile
variable {α : Type}

/-- The attributes of the layer, `wrappers/python/nntile/layer/layer_norm.py:25-35`. -/
structure LayerNorm (α : Type) where
  x : Moments
  y : Moments
  gamma : Moments
  beta : Moments
  tmpYValue : Tensor
  tmpYGrad : Tensor
  mean : Tensor
  invStddev : Tensor
  axis : Int
  l : Nat
  eps : α
  redux : Bool

/-- `LayerNorm.__init__`, `wrappers/python/nntile/layer/layer_norm.py:38-63`. -/
def LayerNorm.init [FP α] (x y gamma beta : Moments) (tmpYValue tmpYGrad mean invStddev : Tensor) (axis : Int) (eps : α) (redux : Bool) :
    M (LayerNorm α) := do
  let l ← pyIndex x.value.shape axis
  .ok ⟨x, y, gamma, beta, tmpYValue, tmpYGrad, mean, invStddev, axis, l, FP.pow eps (FP.lit (1/2)), redux⟩

/-- `LayerNorm.generate_simple`, `wrappers/python/nntile/layer/layer_norm.py:66-130`: the layer and the tasks which initialize its parameters. `next` numbers the
new tensors. The distributions of the new tensors (lines 84-86 and 110-118) are not part of the model, except that `x.value.grid.index_to_linear` (line 117) throws
if the index does not have as many elements as `x` has dimensions. -/
def LayerNorm.generate [FP α] (x : Moments) (axis : Int) (eps : α) (next : Nat) (redux : Bool) : M (LayerNorm α × List (Task1 α)) := do
  let yValue ← newTensor next x.value.shape x.value.basetile
  let yGrad ← newTensor (next + 1) x.value.shape x.value.basetile
  let n ← pyIndex x.value.shape axis
  let t ← pyIndex x.value.basetile axis
  let gammaValue ← newTensor (next + 2) [n] [t]
  let gammaGrad ← newTensor (next + 3) [n] [t]
  let betaValue ← newTensor (next + 4) [n] [t]
  let betaGrad ← newTensor (next + 5) [n] [t]
  let tmpYValue ← newTensor (next + 6) x.value.shape x.value.basetile
  let tmpYGrad ← newTensor (next + 7) x.value.shape x.value.basetile
  let meanShape := pyTake x.value.shape axis ++ pyDrop x.value.shape (axis + 1)
  let meanTile := pyTake x.value.basetile axis ++ pyDrop x.value.basetile (axis + 1)
  throwIf (meanShape.length ≠ meanTile.length ∨ ¬ Pos meanShape ∨ ¬ Pos meanTile) "TensorTraits"
  throwIf ((pyTake meanShape axis).length + 1 + (pyDrop meanShape axis).length ≠ x.value.shape.length) "Wrong number of dimensions"
  let mean ← newTensor (next + 8) meanShape meanTile
  let invStddev ← newTensor (next + 9) meanShape meanTile
  let layer ← LayerNorm.init x ⟨yValue, yGrad, true⟩ ⟨gammaValue, gammaGrad, true⟩ ⟨betaValue, betaGrad, true⟩ tmpYValue tmpYGrad mean invStddev axis eps redux
  let tasks ← seqAsync [clearAsync betaValue, fillAsync 1 gammaValue]
  .ok (layer, tasks)

/-- `LayerNorm.forward_async`, `wrappers/python/nntile/layer/layer_norm.py:133-167`. -/
def LayerNorm.forwardAsync [FP α] (n : LayerNorm α) : M (List (Task1 α)) := seqAsync [
  sumSliceAsync (1 / FP.ofIndex n.l) n.x.value 0 n.mean n.axis n.redux,
  addSlice3Async (-1) n.mean 1 n.x.value n.tmpYValue n.axis,
  normSliceAsync (1 / FP.pow (FP.ofIndex n.l) (FP.lit (1/2))) n.tmpYValue 0 n.invStddev n.axis n.redux,
  hypotScalarInverseAsync n.eps 1 n.invStddev,
  prodSliceAsync n.invStddev 1 n.tmpYValue n.axis,
  prodFiber3Async n.gamma.value 1 n.tmpYValue n.y.value n.axis,
  addFiberAsync 1 n.beta.value 1 n.y.value n.axis 0]

/-- `LayerNorm.backward_async`, `wrappers/python/nntile/layer/layer_norm.py:170-218`. -/
def LayerNorm.backwardAsync [FP α] (invalidate : Bool) (n : LayerNorm α) : M (List (Task1 α)) := seqAsync [
  sumFiberAsync 1 n.y.grad 1 n.beta.grad n.axis 0 n.redux,
  sumprodFiberAsync 1 n.y.grad n.tmpYValue 1 n.gamma.grad n.axis n.redux,
  prodFiber3Async n.gamma.value 1 n.y.grad n.tmpYGrad n.axis,
  sumprodSliceAsync (-1 / FP.ofIndex n.l) n.tmpYGrad n.tmpYValue 0 n.mean n.axis n.redux,
  prodSliceAsync n.mean 1 n.tmpYValue n.axis,
  axpyScalarAsync 1 n.tmpYGrad n.tmpYValue,
  sumSliceAsync (1 / FP.ofIndex n.l) n.tmpYGrad 0 n.mean n.axis n.redux,
  invalidateAsync invalidate n.tmpYGrad,
  addSliceAsync (-1) n.mean 1 n.tmpYValue n.axis,
  invalidateAsync invalidate n.mean,
  prodSliceAsync n.invStddev 1 n.tmpYValue n.axis,
  invalidateAsync invalidate n.invStddev,
  axpyScalarAsync 1 n.tmpYValue n.x.grad,
  invalidateAsync invalidate n.tmpYValue]

end NNTile
