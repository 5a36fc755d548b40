import Verif.Model.Gemm
import Verif.Model.Linear
import Verif.Model.Tile
/-!
# `gemm_ex`: multiplication of matrices of `fp32_t` by tensor cores

`cublasGemmEx` with `CUBLAS_COMPUTE_32F_FAST_TF32` is external; it is replaced by its specification: the elements of both factors are rounded (to TF32, by the function `tf32`) before they are multiplied.
There is no implementation for CPU: without CUDA (`cuda = false`) StarPU finds no worker for the task, and `starpu_task_insert` returns an error.
-/
namespace NNTile
variable {α : Type}

/-- All elements changed by a function. -/
def Buf.rounded (f : α → α) (b : Buf α) : Buf α := ⟨b.size, fun i => (b.data i).map f⟩

/-- `cublasGemmEx(handle, transA, transB, M, N, K, &alpha, A, CUDA_R_32F, ldA, B, CUDA_R_32F, ldB, &beta, C, CUDA_R_32F, ldC, CUBLAS_COMPUTE_32F_FAST_TF32, ...)` called in
`src/starpu/gemm_ex.cc:32-41`, external. -/
def cublasGemmEx [FP α] (tf32 : α → α) (transA transB : TransOp) (m n k : Nat) (alpha : α) (A : Buf α) (oA ldA : Nat) (B : Buf α) (oB ldB : Nat) (beta : α) (oC ldC : Nat) (C : Buf α) : M (Buf α) :=
  cblasGemm transA transB m n k alpha (A.rounded tf32) oA ldA (B.rounded tf32) oB ldB beta oC ldC C

/-- `starpu::gemm_ex::cuda`, `src/starpu/gemm_ex.cc:59-119`. The number of matrices is converted to `int` for `cublasGemmStridedBatchedEx` (lines 45-56) without a check; a number that does not fit is an error
here. -/
def gemmExKernel [FP α] (tf32 : α → α) (transA transB : TransOp) (m n k batch : Nat) (alpha : α) (A B : Buf α) (beta : α) (C : Buf α) : M (Buf α) :=
  let ldA := transA.sel m k
  let ldB := transB.sel k n
  if batch = 1 then cublasGemmEx tf32 transA transB m n k alpha A 0 ldA B 0 ldB beta 0 m C
  else if 2^31 ≤ batch then .error (.ub "batchCount does not fit int")
  else
    let A_offset := m * k
    let B_offset := n * k
    let C_offset := m * n
    forN batch (fun i C => cublasGemmEx tf32 transA transB m n k alpha A (i*A_offset) ldA B (i*B_offset) ldB beta (i*C_offset) m C) C

/-- `starpu::gemm_ex::submit`, `src/starpu/gemm_ex.cc:200-268`, with the codelets initialised at lines 144-182. -/
def submitGemmEx [FP α] (cuda : Bool) (tf32 : α → α) (transA transB : TransOp) (m n k batch : Nat) (alpha : α) (A B : Handle) (beta : α) (C : Handle) (redux : Bool) : M (Task1 α) := do
  throwIf (cuda = true ∧ 2^31 ≤ m) "GEMM size M does not fit int"
  throwIf (cuda = true ∧ 2^31 ≤ n) "GEMM size N does not fit int"
  throwIf (cuda = true ∧ 2^31 ≤ k) "GEMM size K does not fit int"
  throwIf (cuda = false) "Error in gemm_ex task submission"
  .ok (task2 "gemm_ex" A B (reduceMode beta redux) C (fun a b c => gemmExKernel tf32 transA transB m n k batch alpha a b beta c))

/-- `tensor::gemm_ex_async`, `src/tensor/gemm_ex.cc:24-166`. -/
def gemmExAsync [FP α] (cuda : Bool) (tf32 : α → α) (alpha : α) (transA : TransOp) (A : Tensor) (transB : TransOp) (B : Tensor) (beta : α) (C : Tensor) (ndim batch_ndim : Int)
    (redux : Bool) : M (List (Task1 α)) := do
  gemmCheck transA A transB B C ndim batch_ndim
  let nd := ndim.toNat
  let bn := batch_ndim.toNat
  let d := A.ndim - bn - nd
  let m := msRows C.grid d
  let batch := msCols C.grid (C.ndim - bn)
  let n := msCols C.grid d / batch
  let k := transA.sel (msCols A.grid d / batch) (msRows A.grid nd)
  let opA_stride : Nat × Nat := transA.sel (1, m) (k, 1)
  let opB_stride : Nat × Nat := transB.sel (1, k) (n, 1)
  forTasks batch (fun b => forTasks n (fun j => forTasks m (fun i => do
    let C_tile_offset := (b*n + j)*m + i
    let C_tile_handle ← C.handleL C_tile_offset
    let S := C.tshapeL C_tile_offset
    let tile_m := msRows S d
    let tile_batch := msCols S (C.ndim - bn)
    let tile_n := msCols S d / tile_batch
    let tile_k := fun A_tile_offset => transA.sel (msCols (A.tshapeL A_tile_offset) d / tile_batch) (msRows (A.tshapeL A_tile_offset) nd)
    let A_tile_offset := opA_stride.1*i + b*m*k
    let B_tile_offset := opB_stride.2*j + b*n*k
    let A_first_tile_handle ← A.handleL A_tile_offset
    let B_first_tile_handle ← B.handleL B_tile_offset
    let first ← submitGemmEx cuda tf32 transA transB tile_m tile_n (tile_k A_tile_offset) tile_batch alpha A_first_tile_handle B_first_tile_handle beta
      C_tile_handle redux
    let rest ← forTasks (k - 1) (fun l => do
      let A_tile_offset := A_tile_offset + (l + 1)*opA_stride.2
      let B_tile_offset := B_tile_offset + (l + 1)*opB_stride.1
      let A_tile_handle ← A.handleL A_tile_offset
      let B_tile_handle ← B.handleL B_tile_offset
      let t ← submitGemmEx cuda tf32 transA transB tile_m tile_n (tile_k A_tile_offset) tile_batch alpha A_tile_handle B_tile_handle 1 C_tile_handle redux
      .ok [t])
    .ok (first :: rest))))

/-- `tile::gemm_ex_async`, `src/tile/gemm_ex.cc:24-61`; the checks are those of `tile::gemm_async`. -/
def tileGemmEx [FP α] (cuda : Bool) (tf32 : α → α) (alpha : α) (transA : TransOp) (A : Tile) (transB : TransOp) (B : Tile) (beta : α) (C : Tile) (ndim batch_ndim : Int) :
    M (List (Task1 α)) := do
  tileGemmCheck transA A transB B C ndim batch_ndim
  let nd := ndim.toNat
  let bn := batch_ndim.toNat
  let d := A.ndim - bn - nd
  let m := msRows C.shape d
  let batch := msCols C.shape (C.ndim - bn)
  let n := msCols C.shape d / batch
  let k := transA.sel (msCols A.shape d / batch) (msRows A.shape nd)
  let t ← submitGemmEx cuda tf32 transA transB m n k batch alpha A.handle B.handle beta C.handle false
  .ok [t]

/-- `Linear.forward_async` of a layer made with `fp32_fast_tf32=True` for tensors of single precision, `wrappers/python/nntile/layer/linear.py:189-248`. -/
def Linear.forwardFastAsync [FP α] (cuda : Bool) (tf32 : α → α) (l : Linear) : M (List (Task1 α)) :=
  match l.side with
  | .L => seqAsync [
      gemmExAsync cuda tf32 1 l.transX l.x.value .noTrans l.w.value 0 l.y.value l.ndim 0 l.redux,
      match l.b with
      | some b => addFiberAsync 1 b.value 1 l.y.value ((l.y.value.ndim : Int) - 1) 0
      | none => .ok []]
  | .R => seqAsync [
      gemmExAsync cuda tf32 1 .noTrans l.w.value l.transX l.x.value 0 l.y.value l.ndim 0 l.redux,
      match l.b with
      | some b => addFiberAsync 1 b.value 1 l.y.value 0 0
      | none => .ok []]

/-- Gradient over `W` with `fp32_fast_tf32=True`, `wrappers/python/nntile/layer/linear.py:255-325`. -/
def Linear.backwardFastW [FP α] (cuda : Bool) (tf32 : α → α) (l : Linear) : M (List (Task1 α)) :=
  let gemm_ndim : Int := (l.x.value.ndim : Int) - l.ndim
  match l.side, l.transX with
  | .L, .noTrans => gemmExAsync cuda tf32 1 .trans l.x.value .noTrans l.y.grad 1 l.w.grad gemm_ndim 0 l.redux
  | .L, .trans => gemmExAsync cuda tf32 1 .noTrans l.x.value .noTrans l.y.grad 1 l.w.grad gemm_ndim 0 l.redux
  | .R, .noTrans => gemmExAsync cuda tf32 1 .noTrans l.y.grad .trans l.x.value 1 l.w.grad gemm_ndim 0 l.redux
  | .R, .trans => gemmExAsync cuda tf32 1 .noTrans l.y.grad .noTrans l.x.value 1 l.w.grad gemm_ndim 0 l.redux

/-- Gradient over `X` with `fp32_fast_tf32=True`, `wrappers/python/nntile/layer/linear.py:344-414`. -/
def Linear.backwardFastX [FP α] (cuda : Bool) (tf32 : α → α) (l : Linear) : M (List (Task1 α)) :=
  let gemm_ndim : Int := (l.w.value.ndim : Int) - l.ndim
  match l.side, l.transX with
  | .L, .noTrans => gemmExAsync cuda tf32 1 .noTrans l.y.grad .trans l.w.value 1 l.x.grad gemm_ndim 0 l.redux
  | .L, .trans => gemmExAsync cuda tf32 1 .noTrans l.w.value .trans l.y.grad 1 l.x.grad gemm_ndim 0 l.redux
  | .R, .noTrans => gemmExAsync cuda tf32 1 .trans l.w.value .noTrans l.y.grad 1 l.x.grad gemm_ndim 0 l.redux
  | .R, .trans => gemmExAsync cuda tf32 1 .trans l.y.grad .noTrans l.w.value 1 l.x.grad gemm_ndim 0 l.redux

/-- `Linear.backward_async` with `fp32_fast_tf32=True`; the gradient over the bias is the same as without, `wrappers/python/nntile/layer/linear.py:251-429`. -/
def Linear.backwardFastAsync [FP α] (cuda : Bool) (tf32 : α → α) (l : Linear) : M (List (Task1 α)) :=
  seqAsync [whenAsync l.w.gradRequired (l.backwardFastW cuda tf32), l.backwardB, whenAsync l.x.gradRequired (l.backwardFastX cuda tf32)]

end NNTile
