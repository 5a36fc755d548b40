import Verif.Model.TileLoop
/-!
# Copying: `copy`, `scatter`, `gather`, `copy_intersection`
-/
namespace NNTile
variable {α : Type}

/-- `std::memcpy(dst, src, size)` with the size of the source, `src/starpu/copy.cc:27-38`; also `starpu_data_cpy`. Undefined contents are
copied as undefined. -/
def copyKernel (src dst : Buf α) : M (Buf α) :=
  if src.size ≤ dst.size then .ok ⟨dst.size, fun k => if k < src.size then src.data k else dst.data k⟩
  else .error (.ub "memcpy out of bounds")

/-- `starpu::copy::submit`, `src/starpu/copy.cc:83-100`; the same task is used for `starpu_data_cpy(dst, src, 1, ...)`. -/
def submitCopy (src dst : Handle) : Task1 α :=
  ⟨"copy", [src], dst, .W, fun rs b => match rs with
    | [a] => copyKernel a b
    | _ => .error (.ub "buffers")⟩

/-- `starpu::subcopy::submit`, `src/starpu/subcopy.cc:110-137`, with the codelet `src/starpu/subcopy.cc:27-44`. -/
def submitSubcopy (srcStart srcStride dstStart dstStride box : List Nat) (src dst : Handle) (mode : WMode) : Task1 α :=
  ⟨"subcopy", [src], dst, mode, fun rs b => match rs with
    | [a] => subcopyKernel srcStart srcStride box a dstStart dstStride b
    | _ => .error (.ub "buffers")⟩

/-- `tensor::scatter_async`, `src/tensor/scatter.cc:32-140`. -/
def scatterAsync (src dst : Tensor) : M (List (Task1 α)) := do
  throwIf (src.ntiles ≠ 1) "Source must be a single-tiled tensor"
  throwIf (src.shape ≠ dst.shape) "src.shape != dst.shape"
  let srcH ← src.handleL 0
  if dst.ntiles = 1 then do
    let dstH ← dst.handleL 0
    .ok [submitCopy srcH dstH]
  else
    odoLoop (gridNext dst.grid)
      (fun i index => do
        let dstH ← dst.handleL i
        .ok [submitSubcopy (mulIdx index dst.basetile) (strideFrom 1 (src.tshapeL 0)) (List.replicate src.ndim 0)
          (strideFrom 1 (dst.tshapeL i)) (dst.tshapeL i) srcH dstH .W])
      dst.ntiles 0 (List.replicate src.ndim 0)

/-- `for(i = 1; i < n; ++i) { s = next(s); body(i, s); }` (the counter is updated before the body), `src/tensor/gather.cc:86-113`,
`src/tensor/copy_intersection.cc:296-382`. First argument: number of remaining iterations. -/
def odoLoop1 {σ τ : Type} (next : σ → M σ) (body : Nat → σ → M (List τ)) : Nat → Nat → σ → M (List τ)
  | 0, _, _ => .ok []
  | r + 1, i, s => do
    let s ← next s
    let l ← body i s
    let l' ← odoLoop1 next body r (i + 1) s
    .ok (l ++ l')

/-- `tensor::gather_async`, `src/tensor/gather.cc:31-116`. -/
def gatherAsync (src dst : Tensor) : M (List (Task1 α)) := do
  throwIf (dst.ntiles ≠ 1) "Destination must be a single-tiled tensor"
  throwIf (src.shape ≠ dst.shape) "src.shape != dst.shape"
  let dstH ← dst.handleL 0
  if src.ntiles = 1 then do
    let srcH ← src.handleL 0
    .ok [submitCopy srcH dstH]
  else do
    let zero := List.replicate src.ndim 0
    let srcH ← src.handleL 0
    let first := submitSubcopy zero (strideFrom 1 (src.tshapeL 0)) zero (strideFrom 1 (dst.tshapeL 0)) (src.tshapeL 0) srcH dstH .W
    let rest ← odoLoop1 (gridNext src.grid)
      (fun i index => do
        let srcH ← src.handleL i
        .ok [submitSubcopy zero (strideFrom 1 (src.tshapeL i)) (mulIdx index src.basetile) (strideFrom 1 (dst.tshapeL 0))
          (src.tshapeL i) srcH dstH .RW])
      (src.ntiles - 1) 1 zero
    .ok (first :: rest)

/-- `tensor::copy_async`, `src/tensor/copy.cc:30-60`. -/
def copyAsync (src dst : Tensor) : M (List (Task1 α)) := do
  throwIf (src.shape ≠ dst.shape) "src.shape != dst.shape"
  throwIf (src.basetile ≠ dst.basetile) "src.basetile_shape != dst.basetile_shape"
  forTasks src.ntiles (fun i => do
    let srcH ← src.handleL i
    let dstH ← dst.handleL i
    .ok [submitCopy srcH dstH])

end NNTile
