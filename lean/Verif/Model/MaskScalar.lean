import Verif.Model.Axis
/-!
# `mask_scalar`

Memory cells of all tensors have one type `α` in the model; `asBool` says how the contents of a cell of the `bool_t` tensor are read.
-/
namespace NNTile
variable {α : Type}

/-- `src/kernel/mask_scalar/cpu.cc:25-49`. -/
def maskScalarKernel (asBool : α → Bool) (nrows ncols : Nat) (mask : Buf α) (val : α) (data : Buf α) : M (Buf α) :=
  forN nrows (fun i data => do
    let b ← mask.rd i
    if !asBool b then forN ncols (fun j data => data.wr (j*nrows + i) val) data
    else .ok data) data

/-- `starpu::mask_scalar::submit`, `src/starpu/mask_scalar.cc:112-136`. -/
def submitMaskScalar (asBool : α → Bool) (nrows ncols : Nat) (mask : Handle) (val : α) (data : Handle) : Task1 α :=
  task1 "mask_scalar" mask .RW data (fun m d => maskScalarKernel asBool nrows ncols m val d)

/-- `mask_scalar_async`, `src/tensor/mask_scalar.cc:27-75`. The checks make `A.ndim-batch_ndim` equal to `mask.ndim`, which is used for it below;
`vslice` is the loop of lines 56-59; `matrix_shape[i][0]`, `matrix_shape[i][1]` are the products of the first `i` and of the other sizes (`C02_metadata`). -/
def maskScalarAsync (asBool : α → Bool) (mask : Tensor) (val : α) (A : Tensor) (batch_ndim : Int) : M (List (Task1 α)) := do
  throwIf ((mask.ndim : Int) ≠ A.ndim - batch_ndim) "mask.ndim != A.ndim-batch_ndim"
  let d := mask.ndim
  forCheck d (fun i => checkPair A mask i i)
  forTasks A.ntiles (fun i => do
    let A_tile_handle ← A.handleL i
    let mask_tile_index ← vslice (A.tindex i) 0 d
    let mask_tile_handle ← mask.handleAt mask_tile_index
    let S := A.tshapeL i
    .ok [submitMaskScalar asBool (S.take d).prod (S.drop d).prod mask_tile_handle val A_tile_handle])

end NNTile
