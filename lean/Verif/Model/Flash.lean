import Verif.Model.Gemm
import Verif.Model.Slice
import Verif.Model.Reduce
import Verif.Model.Maxsumexp
import Verif.Model.Softmax
import Verif.Model.MaskScalar
import Verif.Model.Elementwise
/-!
# The fused operations of FlashAttention: `flash_maxsumexp`, `flash_softmax_gemm`, `flash_softmax_gemm_backward`

The functions for the CPU. Handles in mode `STARPU_SCRATCH` are uninitialized local buffers of the size of the tile with that handle. `ninf` stands for
`-std::numeric_limits<T>::infinity()` (the reals have no infinity). Conversions between `float` and `double` are not modelled (`1.0/std::sqrt(...)`). The argument
`fp32_fast_tf32` selects a codelet without a CPU function and is not modelled; `redux` is set to zero by the tensor functions. The tensor functions check nothing.
-/
namespace NNTile
variable {α : Type}

/-- `1.0/std::sqrt(T(args->head))`, `src/starpu/flash_maxsumexp.cc.in:90`. In `src/starpu/flash_softmax_gemm_backward_sumprod_slice.cc.in:96` the square root is
computed in double precision instead of `T`; this difference in rounding is not modelled. -/
def flashScale [FP α] (head : Nat) : α := 1 / FP.sqrt (FP.ofIndex head)

/-- The scores of one tile, `src/starpu/flash_maxsumexp.cc.in:82-97`, `src/starpu/flash_softmax_gemm.cc.in:84-99`,
`src/starpu/flash_softmax_gemm_backward_sumprod_slice.cc.in:88-103`, `src/starpu/flash_softmax_gemm_backward_dq_dk.cc.in:90-105`. `n`: size of the scratch buffer. The loop over
the batch with one call of `cblas` per element is the one of `gemmKernel`. -/
def flashScores [FP α] (asBool : α → Bool) (ninf : α) (seq head batch n : Nat) (K Q mask : Buf α) : M (Buf α) := do
  let tmp ← gemmKernel .trans .noTrans seq seq head batch (flashScale head) K Q 0 (Buf.undef n)
  maskScalarKernel asBool (seq*seq) batch mask ninf tmp

/-- The weights of one tile: the scores followed by `softmax_inplace`, `src/starpu/flash_softmax_gemm.cc.in:84-101`,
`src/starpu/flash_softmax_gemm_backward_sumprod_slice.cc.in:88-105`, `src/starpu/flash_softmax_gemm_backward_dq_dk.cc.in:90-107`. -/
def flashWeights [FP α] (asBool : α → Bool) (ninf : α) (seq head batch n : Nat) (K Q mask maxsumexp : Buf α) : M (Buf α) := do
  let tmp ← flashScores asBool ninf seq head batch n K Q mask
  softmaxInplaceKernel 1 (seq*batch) seq maxsumexp 1 tmp

/-- `flash_maxsumexp::cpu`, `src/starpu/flash_maxsumexp.cc.in:68-100`. -/
def flashMaxsumexpKernel [FP α] (asBool : α → Bool) (ninf : α) (seq head batch n : Nat) (K Q mask maxsumexp : Buf α) : M (Buf α) := do
  let tmp ← flashScores asBool ninf seq head batch n K Q mask
  maxsumexpKernel 1 (seq*batch) seq tmp maxsumexp

/-- `flash_softmax_gemm::cpu`, `src/starpu/flash_softmax_gemm.cc.in:68-116`. -/
def flashSoftmaxGemmKernel [FP α] (asBool : α → Bool) (ninf : α) (seq head batch n : Nat) (K Q mask maxsumexp V A : Buf α) : M (Buf α) := do
  let tmp ← flashWeights asBool ninf seq head batch n K Q mask maxsumexp
  gemmKernel .noTrans .noTrans head seq seq batch 1 V tmp 1 A

/-- What `flash_softmax_gemm_backward_sumprod_slice::cpu` does to `dV`, `src/starpu/flash_softmax_gemm_backward_sumprod_slice.cc.in:88-119`. -/
def flashDVKernel [FP α] (asBool : α → Bool) (ninf : α) (seq head batch n : Nat) (K Q mask maxsumexp dA dV : Buf α) : M (Buf α) := do
  let tmp ← flashWeights asBool ninf seq head batch n K Q mask maxsumexp
  gemmKernel .noTrans .trans head seq seq batch 1 dA tmp 1 dV

/-- The gradient of the weights of one tile, `src/starpu/flash_softmax_gemm_backward_sumprod_slice.cc.in:120-133`,
`src/starpu/flash_softmax_gemm_backward_dq_dk.cc.in:108-121`. -/
def flashWeightsGrad [FP α] (seq head batch n' : Nat) (dA V : Buf α) : M (Buf α) :=
  gemmKernel .trans .noTrans seq seq head batch 1 V dA 0 (Buf.undef n')

/-- What `flash_softmax_gemm_backward_sumprod_slice::cpu` does to `sumprod_slice`, `src/starpu/flash_softmax_gemm_backward_sumprod_slice.cc.in:88-136`. -/
def flashSumprodKernel [FP α] (asBool : α → Bool) (ninf : α) (seq head batch n n' : Nat) (K Q mask maxsumexp dA V sumprod : Buf α) : M (Buf α) := do
  let tmp ← flashWeights asBool ninf seq head batch n K Q mask maxsumexp
  let tmp_grad ← flashWeightsGrad seq head batch n' dA V
  sumprodSliceKernel 1 (seq*batch) seq 1 tmp_grad tmp 1 sumprod

/-- The gradient of the scores of one tile, `src/starpu/flash_softmax_gemm_backward_dq_dk.cc.in:90-126`. -/
def flashScoresGrad [FP α] (asBool : α → Bool) (ninf : α) (seq head batch n n' : Nat) (K Q mask maxsumexp dA V sumprod : Buf α) : M (Buf α) := do
  let tmp ← flashWeights asBool ninf seq head batch n K Q mask maxsumexp
  let tmp_grad ← flashWeightsGrad seq head batch n' dA V
  let tmp_grad ← addSliceKernel 1 (seq*batch) seq (-1) sumprod 1 tmp_grad
  let tmp_grad ← prodKernel (seq*seq*batch) tmp tmp_grad
  maskScalarKernel asBool (seq*seq) batch mask 0 tmp_grad

/-- What `flash_softmax_gemm_backward_dq_dk::cpu` does to `dQ`, `src/starpu/flash_softmax_gemm_backward_dq_dk.cc.in:90-147`. -/
def flashDQKernel [FP α] (asBool : α → Bool) (ninf : α) (seq head batch n n' : Nat) (K Q mask maxsumexp dA V sumprod dQ : Buf α) : M (Buf α) := do
  let tmp_grad ← flashScoresGrad asBool ninf seq head batch n n' K Q mask maxsumexp dA V sumprod
  gemmKernel .noTrans .noTrans head seq seq batch (flashScale head) K tmp_grad 1 dQ

/-- What it does to `dK`. In the loop of lines 133-146 the calls for `dQ` and `dK` alternate; `dQ` and `dK` are different buffers. -/
def flashDKKernel [FP α] (asBool : α → Bool) (ninf : α) (seq head batch n n' : Nat) (K Q mask maxsumexp dA V sumprod dK : Buf α) : M (Buf α) := do
  let tmp_grad ← flashScoresGrad asBool ninf seq head batch n n' K Q mask maxsumexp dA V sumprod
  gemmKernel .noTrans .trans head seq seq batch (flashScale head) Q tmp_grad 1 dK

/-- `flash_maxsumexp::submit`, `src/starpu/flash_maxsumexp.cc.in:285-330`. -/
def submitFlashMaxsumexp [FP α] (asBool : α → Bool) (ninf : α) (seq head batch : Nat) (K Q mask maxsumexp : Handle) (n : Nat) : Task1 α :=
  ⟨"flash_maxsumexp", [K, Q, mask], maxsumexp, .RW, fun rs b => match rs with
    | [k, q, m] => flashMaxsumexpKernel asBool ninf seq head batch n k q m b
    | _ => .error (.ub "buffers")⟩

/-- `flash_softmax_gemm::submit`, `src/starpu/flash_softmax_gemm.cc.in:316-364`. -/
def submitFlashSoftmaxGemm [FP α] (asBool : α → Bool) (ninf : α) (seq head batch : Nat) (K Q mask maxsumexp V A : Handle) (n : Nat) : Task1 α :=
  ⟨"flash_softmax_gemm", [K, Q, mask, maxsumexp, V], A, .RW, fun rs b => match rs with
    | [k, q, m, e, v] => flashSoftmaxGemmKernel asBool ninf seq head batch n k q m e v b
    | _ => .error (.ub "buffers")⟩

/-- `flash_softmax_gemm_backward_sumprod_slice::submit`, `src/starpu/flash_softmax_gemm_backward_sumprod_slice.cc.in:358-411`. -/
def submitFlashBackward1 [FP α] (asBool : α → Bool) (ninf : α) (seq head batch : Nat) (K Q mask maxsumexp dA V dV sumprod : Handle) (n n' : Nat) : Task α :=
  ⟨"flash_softmax_gemm_backward_sumprod_slice", [K, Q, mask, maxsumexp, dA, V], [(dV, .RW), (sumprod, .RW)], fun rs ws => match rs, ws with
    | [k, q, m, e, g, v], [b, c] => do
      let b ← flashDVKernel asBool ninf seq head batch n k q m e g b
      let c ← flashSumprodKernel asBool ninf seq head batch n n' k q m e g v c
      .ok [b, c]
    | _, _ => .error (.ub "buffers")⟩

/-- `flash_softmax_gemm_backward_dq_dk::submit`, `src/starpu/flash_softmax_gemm_backward_dq_dk.cc.in:387-441`. -/
def submitFlashBackward2 [FP α] (asBool : α → Bool) (ninf : α) (seq head batch : Nat) (K Q mask maxsumexp dA V sumprod dQ dK : Handle) (n n' : Nat) : Task α :=
  ⟨"flash_softmax_gemm_backward_dq_dk", [K, Q, mask, maxsumexp, dA, V, sumprod], [(dQ, .RW), (dK, .RW)], fun rs ws => match rs, ws with
    | [k, q, m, e, g, v, p], [b, c] => do
      let b ← flashDQKernel asBool ninf seq head batch n n' k q m e g v p b
      let c ← flashDKKernel asBool ninf seq head batch n n' k q m e g v p c
      .ok [b, c]
    | _, _ => .error (.ub "buffers")⟩

/-- The task `submitFlashBackward1` cut into one task per written handle. A layer is a list of tasks with one written handle each; `C49_two_outputs` shows that cutting does not
matter. -/
def splitFlashBackward1 [FP α] (asBool : α → Bool) (ninf : α) (seq head batch : Nat) (K Q mask maxsumexp dA V dV sumprod : Handle) (n n' : Nat) : List (Task1 α) :=
  [⟨"flash_softmax_gemm_backward_sumprod_slice", [K, Q, mask, maxsumexp, dA, V], dV, .RW, fun rs b => match rs with
    | [k, q, m, e, g, _] => flashDVKernel asBool ninf seq head batch n k q m e g b
    | _ => .error (.ub "buffers")⟩,
   ⟨"flash_softmax_gemm_backward_sumprod_slice", [K, Q, mask, maxsumexp, dA, V], sumprod, .RW, fun rs b => match rs with
    | [k, q, m, e, g, v] => flashSumprodKernel asBool ninf seq head batch n n' k q m e g v b
    | _ => .error (.ub "buffers")⟩]

/-- The same for `submitFlashBackward2`. -/
def splitFlashBackward2 [FP α] (asBool : α → Bool) (ninf : α) (seq head batch : Nat) (K Q mask maxsumexp dA V sumprod dQ dK : Handle) (n n' : Nat) : List (Task1 α) :=
  [⟨"flash_softmax_gemm_backward_dq_dk", [K, Q, mask, maxsumexp, dA, V, sumprod], dQ, .RW, fun rs b => match rs with
    | [k, q, m, e, g, v, p] => flashDQKernel asBool ninf seq head batch n n' k q m e g v p b
    | _ => .error (.ub "buffers")⟩,
   ⟨"flash_softmax_gemm_backward_dq_dk", [K, Q, mask, maxsumexp, dA, V, sumprod], dK, .RW, fun rs b => match rs with
    | [k, q, m, e, g, v, p] => flashDKKernel asBool ninf seq head batch n n' k q m e g v p b
    | _ => .error (.ub "buffers")⟩]

/-- Number of elements of the tile of `T` with grid index `t`, `get_tile_handle` of a scratch tensor. -/
def scratchAt (T : Tensor) (t : List Nat) : M Nat := do
  let S ← T.tshapeAt t
  .ok S.prod

/-- `flash_maxsumexp_async`, `src/tensor/flash_maxsumexp.cc:26-118`. -/
def flashMaxsumexpAsync [FP α] (asBool : α → Bool) (ninf : α) (Q K mask maxsumexp tmp : Tensor) : M (List (Task1 α)) := do
  let head_size ← vget Q.shape 0
  let n_seq_tile ← vget Q.basetile 1
  let n_batch_tile ← vget Q.basetile 2
  let n_head_tile ← vget Q.basetile 3
  forTasks maxsumexp.ntiles (fun i => do
    let maxsumexp_tile_handle ← maxsumexp.handleL i
    let t := maxsumexp.tindex i
    let q_tile_handle ← Q.handleAt t
    let m1 ← vget t 1
    let g ← vget K.grid 1
    forTasks g (fun j => do
      let n ← scratchAt tmp (t.set 0 j)
      let k_tile_handle ← K.handleAt (t.set 1 j)
      let mask_tile_handle ← mask.handleAt [j, m1]
      .ok [submitFlashMaxsumexp asBool ninf n_seq_tile head_size (n_batch_tile*n_head_tile) k_tile_handle q_tile_handle mask_tile_handle maxsumexp_tile_handle n]))

/-- `flash_softmax_gemm_async`, `src/tensor/flash_softmax_gemm.cc:28-129`. -/
def flashSoftmaxGemmAsync [FP α] (asBool : α → Bool) (ninf : α) (Q K V mask maxsumexp dst tmp : Tensor) : M (List (Task1 α)) := do
  let head_size ← vget Q.shape 0
  let n_seq_tile ← vget Q.basetile 1
  let n_batch_tile ← vget Q.basetile 2
  let n_head_tile ← vget Q.basetile 3
  forTasks maxsumexp.ntiles (fun i => do
    let maxsumexp_tile_handle ← maxsumexp.handleL i
    let t := maxsumexp.tindex i
    let q_tile_handle ← Q.handleAt t
    let dst_tile_handle ← dst.handleAt t
    let m1 ← vget t 1
    let g ← vget K.grid 1
    let rest ← forTasks g (fun j => do
      let n ← scratchAt tmp (t.set 0 j)
      let k_tile_handle ← K.handleAt (t.set 1 j)
      let v_tile_handle ← V.handleAt (t.set 1 j)
      let mask_tile_handle ← mask.handleAt [j, m1]
      .ok [submitFlashSoftmaxGemm asBool ninf n_seq_tile head_size (n_batch_tile*n_head_tile) k_tile_handle q_tile_handle mask_tile_handle maxsumexp_tile_handle
        v_tile_handle dst_tile_handle n])
    .ok (submitClear dst_tile_handle :: rest))

/-- `flash_softmax_gemm_backward_async`, `src/tensor/flash_softmax_gemm_backward.cc:26-202`. `clear`, `sub1`, `sub2` submit the tasks. -/
def flashBackwardLoops {τ : Type} (clear : Handle → List τ)
    (sub1 : Nat → Nat → Nat → Handle → Handle → Handle → Handle → Handle → Handle → Handle → Handle → Nat → Nat → List τ)
    (sub2 : Nat → Nat → Nat → Handle → Handle → Handle → Handle → Handle → Handle → Handle → Handle → Handle → Nat → Nat → List τ)
    (Q dQ K dK V dV mask maxsumexp dst_grad tmp tmp_grad tmp_sumprod_slice : Tensor) : M (List τ) := do
  let head_size ← vget Q.shape 0
  let n_seq_tile ← vget Q.basetile 1
  let n_batch_tile ← vget Q.basetile 2
  let n_head_tile ← vget Q.basetile 3
  let first ← forTasks dV.ntiles (fun i => do
    let dQ_tile_handle ← dQ.handleL i
    let dK_tile_handle ← dK.handleL i
    let dV_tile_handle ← dV.handleL i
    let t := dV.tindex i
    let k_tile_handle ← K.handleAt t
    let v_tile_handle ← V.handleAt t
    let t1 ← vget t 1
    let t2 ← vget t 2
    let t3 ← vget t 3
    let g ← vget Q.grid 1
    let rest ← forTasks g (fun j => do
      let n ← scratchAt tmp ((t.set 0 t1).set 1 j)
      let n' ← scratchAt tmp_grad ((t.set 0 t1).set 1 j)
      let sumprod_tile_handle ← tmp_sumprod_slice.handleAt [j, t2, t3]
      let q_tile_handle ← Q.handleAt (t.set 1 j)
      let dst_grad_tile_handle ← dst_grad.handleAt (t.set 1 j)
      let mask_tile_handle ← mask.handleAt [t1, j]
      let maxsumexp_tile_handle ← maxsumexp.handleAt (t.set 1 j)
      .ok (sub1 n_seq_tile head_size (n_batch_tile*n_head_tile) k_tile_handle q_tile_handle mask_tile_handle maxsumexp_tile_handle dst_grad_tile_handle v_tile_handle
        dV_tile_handle sumprod_tile_handle n n'))
    .ok (clear dQ_tile_handle ++ clear dK_tile_handle ++ clear dV_tile_handle ++ rest))
  let second ← forTasks dV.ntiles (fun i => do
    let dK_tile_handle ← dK.handleL i
    let t := dV.tindex i
    let k_tile_handle ← K.handleAt t
    let v_tile_handle ← V.handleAt t
    let t1 ← vget t 1
    let t2 ← vget t 2
    let t3 ← vget t 3
    let g ← vget dQ.grid 1
    forTasks g (fun j => do
      let n ← scratchAt tmp ((t.set 0 t1).set 1 j)
      let n' ← scratchAt tmp_grad ((t.set 0 t1).set 1 j)
      let sumprod_tile_handle ← tmp_sumprod_slice.handleAt [j, t2, t3]
      let q_tile_handle ← Q.handleAt (t.set 1 j)
      let dst_grad_tile_handle ← dst_grad.handleAt (t.set 1 j)
      let mask_tile_handle ← mask.handleAt [t1, j]
      let maxsumexp_tile_handle ← maxsumexp.handleAt (t.set 1 j)
      let dQ_tile_handle ← dQ.handleAt (t.set 1 j)
      .ok (sub2 n_seq_tile head_size (n_batch_tile*n_head_tile) k_tile_handle q_tile_handle mask_tile_handle maxsumexp_tile_handle dst_grad_tile_handle v_tile_handle
        sumprod_tile_handle dQ_tile_handle dK_tile_handle n n')))
  .ok (first ++ second)

/-- `flash_softmax_gemm_backward_async` with the tasks of the code. -/
def flashBackwardTasks [FP α] (asBool : α → Bool) (ninf : α) (Q dQ K dK V dV mask maxsumexp dst_grad tmp tmp_grad tmp_sumprod_slice : Tensor) : M (List (Task α)) :=
  flashBackwardLoops (fun h => [(submitClear h).toTask])
    (fun seq head batch K Q mask e dA V dV p n n' => [submitFlashBackward1 asBool ninf seq head batch K Q mask e dA V dV p n n'])
    (fun seq head batch K Q mask e dA V p dQ dK n n' => [submitFlashBackward2 asBool ninf seq head batch K Q mask e dA V p dQ dK n n'])
    Q dQ K dK V dV mask maxsumexp dst_grad tmp tmp_grad tmp_sumprod_slice

/-- `flash_softmax_gemm_backward_async` with one task per written handle. -/
def flashBackwardAsync [FP α] (asBool : α → Bool) (ninf : α) (Q dQ K dK V dV mask maxsumexp dst_grad tmp tmp_grad tmp_sumprod_slice : Tensor) : M (List (Task1 α)) :=
  flashBackwardLoops (fun h => [submitClear h]) (splitFlashBackward1 asBool ninf) (splitFlashBackward2 asBool ninf)
    Q dQ K dK V dV mask maxsumexp dst_grad tmp tmp_grad tmp_sumprod_slice

end NNTile
