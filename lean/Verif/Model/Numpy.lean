import Verif.Model.Copy
import Verif.Model.Loss
/-!
# Exchange of data with numpy, `wrappers/python/nntile/nntile_core.cc`

A numpy array is described by its shape and its memory in Fortran order (`py::array::f_style`; the conversion of other arrays to this order is done by pybind11 and not
modelled). MPI is disabled, see `Verif/Model/Task.lean`. `tmpId` is the identity of the temporary tensor.
-/
namespace NNTile
variable {α : Type}

/-- A numpy array in Fortran order. -/
structure NpArray (α : Type) where
  shape : List Nat
  data : Buf α

/-- `std::memcpy(dst, src, n*sizeof(T))`. -/
def memcpyElems (n : Nat) (src dst : Buf α) : M (Buf α) :=
  if n ≤ src.size ∧ n ≤ dst.size then .ok ⟨dst.size, fun k => if k < n then src.data k else dst.data k⟩
  else .error (.ub "memcpy out of bounds")

/-- New contents of one handle. -/
def Store.set (s : Store α) (h : Handle) (b : Buf α) : Store α := fun k => if k = h then b else s k

/-- The checks for 0-dimensional tensors, `wrappers/python/nntile/nntile_core.cc:215-222,276-283`. -/
def npCheckScalar (shape : List Nat) : M Unit := do
  throwIf (shape.length ≠ 1) "array.ndim() != 1"
  throwIf (shape.getD 0 0 ≠ 1) "array.shape()[0] != 1"

/-- The checks for other tensors, `wrappers/python/nntile/nntile_core.cc:236-246,297-307`. -/
def npCheckShape (T : Tensor) (shape : List Nat) : M Unit := do
  throwIf (T.ndim ≠ shape.length) "tensor.ndim != array.ndim()"
  forN T.ndim (fun i _ => throwIf (shape.getD i 0 ≠ T.shape.getD i 0) "array.shape()[i] != tensor.shape[i]") ()

/-- The temporary tensor of one tile, `wrappers/python/nntile/nntile_core.cc:248-254,309-315`; its tile is registered without contents. -/
def npTemporary (T : Tensor) (tmpId : Nat) (s : Store α) : M (Tensor × Store α) := do
  let tmp ← newTensorD tmpId T.shape T.shape 1
  .ok (tmp, s.set (tmpId, 0) (Buf.undef T.shape.prod))

/-- `tensor_from_array`, `wrappers/python/nntile/nntile_core.cc:208-267`. `tensor::scatter` (`src/tensor/scatter.cc:150-155`) waits for the tasks of `scatter_async`. -/
def fromArray (T : Tensor) (tmpId : Nat) (array : NpArray α) (s : Store α) : M (Store α) :=
  if T.ndim = 0 then do
    npCheckScalar array.shape
    let h ← T.handleL 0
    let b ← memcpyElems 1 array.data (Buf.undef (s h).size)
    .ok (s.set h b)
  else do
    npCheckShape T array.shape
    let r ← npTemporary T tmpId s
    let h ← r.1.handleL 0
    let b ← memcpyElems T.shape.prod array.data (Buf.undef (r.2 h).size)
    let tasks ← scatterAsync r.1 T
    runAll1 tasks (r.2.set h b)

/-- `tensor_to_array`, `wrappers/python/nntile/nntile_core.cc:269-330`: the new contents of the array, and the store. `tensor::gather` (`src/tensor/gather.cc:126-131`)
waits for the tasks of `gather_async`. -/
def toArray (T : Tensor) (tmpId : Nat) (array : NpArray α) (s : Store α) : M (NpArray α × Store α) :=
  if T.ndim = 0 then do
    npCheckScalar array.shape
    let h ← T.handleL 0
    let b ← memcpyElems 1 (s h) array.data
    .ok (⟨array.shape, b⟩, s)
  else do
    npCheckShape T array.shape
    let r ← npTemporary T tmpId s
    let tasks ← gatherAsync T r.1
    let s' ← runAll1 tasks r.2
    let h ← r.1.handleL 0
    let b ← memcpyElems T.shape.prod (s' h) array.data
    .ok (⟨array.shape, b⟩, s')

end NNTile
