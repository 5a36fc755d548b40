import Verif.Model.Maxsumexp
/-!
# `softmax`, `softmax_inplace`, `logsumexp`
-/
namespace NNTile
variable {α : Type}

/-- The value that is written, `src/kernel/softmax/cpu.cc:59-66`, `src/kernel/softmax_inplace/cpu.cc:57-64`. -/
def softmaxVal [FP α] (alpha val max sum : α) : α :=
  if FP.isInf val then 0 else alpha * FP.exp (val - max) / sum

/-- `src/kernel/softmax/cpu.cc:25-73`. `src_dst_offset` is increased by one in each of the inner steps, so it is `(i2*k+i1)*m+i0`. -/
def softmaxKernel [FP α] (m n k : Nat) (maxsumexp src : Buf α) (alpha : α) (dst : Buf α) : M (Buf α) :=
  forN n (fun i2 dst => forN k (fun i1 dst => forN m (fun i0 dst => do
    let val ← src.rd ((i2*k + i1)*m + i0)
    let max ← maxsumexp.rd (2*m*i2 + 2*i0)
    let sum ← maxsumexp.rd (2*m*i2 + 2*i0 + 1)
    dst.wr ((i2*k + i1)*m + i0) (softmaxVal alpha val max sum)) dst) dst) dst

/-- `src/kernel/softmax_inplace/cpu.cc:25-71`. -/
def softmaxInplaceKernel [FP α] (m n k : Nat) (maxsumexp : Buf α) (alpha : α) (dst : Buf α) : M (Buf α) :=
  forN n (fun i2 dst => forN k (fun i1 dst => forN m (fun i0 dst => do
    let val ← dst.rd ((i2*k + i1)*m + i0)
    let max ← maxsumexp.rd (2*m*i2 + 2*i0)
    let sum ← maxsumexp.rd (2*m*i2 + 2*i0 + 1)
    dst.wr ((i2*k + i1)*m + i0) (softmaxVal alpha val max sum)) dst) dst) dst

/-- `src/kernel/logsumexp/cpu.cc:26-34`. -/
def logsumexpKernel [FP α] (nelems : Nat) (maxsumexp logsumexp : Buf α) : M (Buf α) :=
  forN nelems (fun i logsumexp => do
    let max ← maxsumexp.rd (2*i)
    let sum ← maxsumexp.rd (2*i+1)
    logsumexp.wr i (max + FP.log sum)) logsumexp

/-- `starpu::softmax::submit`, `src/starpu/softmax.cc:118-137`. -/
def submitSoftmax [FP α] (m n k : Nat) (maxsumexp src : Handle) (alpha : α) (dst : Handle) : Task1 α :=
  task2 "softmax" maxsumexp src .W dst (fun a b d => softmaxKernel m n k a b alpha d)

/-- `starpu::softmax_inplace::submit`, `src/starpu/softmax_inplace.cc:115-133`. -/
def submitSoftmaxInplace [FP α] (m n k : Nat) (maxsumexp : Handle) (alpha : α) (dst : Handle) : Task1 α :=
  task1 "softmax_inplace" maxsumexp .RW dst (fun a d => softmaxInplaceKernel m n k a alpha d)

/-- `starpu::logsumexp::submit`, `src/starpu/logsumexp.cc:96-117`. -/
def submitLogsumexp [FP α] (nelems : Nat) (maxsumexp logsumexp : Handle) : Task1 α :=
  task1 "logsumexp" maxsumexp .W logsumexp (fun a d => logsumexpKernel nelems a d)

/-- Sizes `(m, n, k)` for a tile of pairs of shape `Sm` and a tile of `dst` of shape `S`, `src/tensor/softmax.cc:136-157`,
`src/tensor/softmax_inplace.cc:121-142`. -/
def softmaxSizes (Sm S : List Nat) (axis ndim : Nat) : Nat × Nat × Nat :=
  if axis = 0 then (1, Sm.prod / 2, S.getD 0 0)
  else if axis = ndim - 1 then (Sm.prod / 2, 1, S.getD axis 0)
  else (mOf S axis, nOf S axis, kOf S axis)

/-- The loops over the tiles of pairs and over the tiles of `dst` along `axis`, `src/tensor/softmax.cc:96-165`,
`src/tensor/softmax_inplace.cc:84-150`. `submit` gets the sizes, the handle of the tile of pairs, the handle of the tile of `dst` and its number. -/
def softmaxLoop (maxsumexp dst : Tensor) (axis : Nat) (submit : Nat → Nat → Nat → Handle → Handle → Nat → M (Task1 α)) : M (List (Task1 α)) :=
  forTasks maxsumexp.ntiles (fun i => do
    let maxsumexp_tile_handle ← maxsumexp.handleL i
    let g ← vget dst.grid axis
    forTasks g (fun j => do
      let dst_tile_index := mseTileIndex (maxsumexp.tindex i) axis j
      let dst_tile_handle ← dst.handleAt dst_tile_index
      let S ← dst.tshapeAt dst_tile_index
      let z := softmaxSizes (maxsumexp.tshapeL i) S axis dst.ndim
      let t ← submit z.1 z.2.1 z.2.2 maxsumexp_tile_handle dst_tile_handle (lin dst.grid dst_tile_index)
      .ok [t]))

/-- `softmax_async`, `src/tensor/softmax.cc:23-166`. -/
def softmaxAsync [FP α] (maxsumexp src : Tensor) (alpha : α) (dst : Tensor) (axis : Int) : M (List (Task1 α)) := do
  throwIf (maxsumexp.ndim ≠ dst.ndim) "maxsumexp.ndim != dst.ndim"
  throwIf (src.ndim ≠ dst.ndim) "src.ndim != dst.ndim"
  throwIf (maxsumexp.ndim = 0) "maxsumexp.ndim == 0"
  throwIf (axis < 0) "axis < 0"
  throwIf (axis ≥ dst.ndim) "axis >= dst.ndim"
  let d0 ← vget maxsumexp.shape 0
  throwIf (d0 ≠ 2) "maxsumexp.shape[0] != 2"
  let b0 ← vget maxsumexp.basetile 0
  throwIf (b0 ≠ 2) "maxsumexp.basetile_shape[0] != 2"
  let a := axis.toNat
  checkMse dst maxsumexp a
  throwIf (src.shape ≠ dst.shape) "src.shape != dst.shape"
  throwIf (src.basetile ≠ dst.basetile) "src.basetile_shape != dst.basetile_shape"
  softmaxLoop maxsumexp dst a (fun m n k hm hd i => do
    let hs ← src.handleL i
    .ok (submitSoftmax m n k hm hs alpha hd))

/-- `softmax_inplace_async`, `src/tensor/softmax_inplace.cc:23-151`. -/
def softmaxInplaceAsync [FP α] (maxsumexp : Tensor) (alpha : α) (dst : Tensor) (axis : Int) : M (List (Task1 α)) := do
  throwIf (maxsumexp.ndim ≠ dst.ndim) "maxsumexp.ndim != dst.ndim"
  throwIf (maxsumexp.ndim = 0) "maxsumexp.ndim == 0"
  throwIf (axis < 0) "axis < 0"
  throwIf (axis ≥ dst.ndim) "axis >= dst.ndim"
  let d0 ← vget maxsumexp.shape 0
  throwIf (d0 ≠ 2) "maxsumexp.shape[0] != 2"
  let b0 ← vget maxsumexp.basetile 0
  throwIf (b0 ≠ 2) "maxsumexp.basetile_shape[0] != 2"
  let a := axis.toNat
  checkMse dst maxsumexp a
  softmaxLoop maxsumexp dst a (fun m n k hm hd _ => .ok (submitSoftmaxInplace m n k hm alpha hd))

/-- `logsumexp_async`, `src/tensor/logsumexp.cc:25-81`. -/
def logsumexpAsync [FP α] (src dst : Tensor) : M (List (Task1 α)) := do
  throwIf ((src.ndim : Int) - 1 ≠ dst.ndim) "src.ndim - 1 != dst.ndim"
  throwIf (src.ndim = 0) "Scalar input makes no sense"
  let d0 ← vget src.shape 0
  throwIf (d0 ≠ 2) "src.shape[0] != 2"
  let b0 ← vget src.basetile 0
  throwIf (b0 ≠ 2) "src.basetile_shape[0] != 2"
  forCheck (src.ndim - 1) (fun i => checkPair src dst (i+1) i)
  forTasks dst.ntiles (fun i => do
    let dst_tile_handle ← dst.handleL i
    let src_tile_handle ← src.handleL i
    .ok [submitLogsumexp (dst.tshapeL i).prod src_tile_handle dst_tile_handle])

end NNTile
