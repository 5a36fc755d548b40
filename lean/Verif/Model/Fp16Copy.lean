import Verif.Model.Copy
/-!
# Copying of tensors of half precision

`starpu::subcopy::submit<fp16_t>` uses a codelet whose implementation is the kernel for `fp32_t` (`src/starpu/subcopy.cc:65-69`): the memory of the tiles is accessed in units of four bytes.
-/
namespace NNTile
variable {α : Type}

/-- The memory of a tile of 2-byte elements as an array of 4-byte elements. A unit with an undefined half is undefined. -/
def Buf.words (b : Buf α) : Buf (α × α) :=
  ⟨b.size / 2, fun i => match b.data (2*i), b.data (2*i + 1) with
    | some x, some y => some (x, y)
    | _, _ => none⟩

/-- The memory of the tile after its 4-byte units have become `w`. -/
def Buf.unwords (b : Buf α) (w : Buf (α × α)) : Buf α :=
  ⟨b.size, fun j => if j / 2 < w.size then (match w.data (j / 2) with
      | some p => some (if j % 2 = 0 then p.1 else p.2)
      | none => b.data j)
    else b.data j⟩

/-- `starpu::subcopy::submit<fp16_t>`, `src/starpu/subcopy.cc:110-137,139-148`, with the codelet of `src/starpu/subcopy.cc:65-69`, which is `cpu<fp32_t>`. -/
def submitSubcopyFp16 (srcStart srcStride dstStart dstStride box : List Nat) (src dst : Handle) (mode : WMode) : Task1 α :=
  ⟨"subcopy_fp16", [src], dst, mode, fun rs b => match rs with
    | [a] => do
      let w ← subcopyKernel srcStart srcStride box a.words dstStart dstStride b.words
      .ok (b.unwords w)
    | _ => .error (.ub "buffers")⟩

/-- `tensor::scatter_async<fp16_t>`, `src/tensor/scatter.cc:32-140,158-160`. -/
def scatterFp16Async (src dst : Tensor) : M (List (Task1 α)) := do
  throwIf (src.ntiles ≠ 1) "Source must be a single-tiled tensor"
  throwIf (src.shape ≠ dst.shape) "src.shape != dst.shape"
  let srcH ← src.handleL 0
  if dst.ntiles = 1 then do
    let dstH ← dst.handleL 0
    .ok [submitCopy srcH dstH]
  else
    odoLoop (gridNext dst.grid)
      (fun i index => do
        let dstH ← dst.handleL i
        .ok [submitSubcopyFp16 (mulIdx index dst.basetile) (strideFrom 1 (src.tshapeL 0)) (List.replicate src.ndim 0)
          (strideFrom 1 (dst.tshapeL i)) (dst.tshapeL i) srcH dstH .W])
      dst.ntiles 0 (List.replicate src.ndim 0)

/-- `tensor::gather_async<fp16_t>`, `src/tensor/gather.cc:31-116,134-136`. -/
def gatherFp16Async (src dst : Tensor) : M (List (Task1 α)) := do
  throwIf (dst.ntiles ≠ 1) "Destination must be a single-tiled tensor"
  throwIf (src.shape ≠ dst.shape) "src.shape != dst.shape"
  let dstH ← dst.handleL 0
  if src.ntiles = 1 then do
    let srcH ← src.handleL 0
    .ok [submitCopy srcH dstH]
  else do
    let zero := List.replicate src.ndim 0
    let srcH ← src.handleL 0
    let first := submitSubcopyFp16 zero (strideFrom 1 (src.tshapeL 0)) zero (strideFrom 1 (dst.tshapeL 0)) (src.tshapeL 0) srcH dstH .W
    let rest ← odoLoop1 (gridNext src.grid)
      (fun i index => do
        let srcH ← src.handleL i
        .ok [submitSubcopyFp16 zero (strideFrom 1 (src.tshapeL i)) (mulIdx index src.basetile) (strideFrom 1 (dst.tshapeL 0))
          (src.tshapeL i) srcH dstH .RW])
      (src.ntiles - 1) 1 zero
    .ok (first :: rest)

end NNTile
