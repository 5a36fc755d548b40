import Verif.Model.Reduce
/-!
# Matrix multiplication: `gemm`

Not modelled: the checks that `m`, `n`, `k` of a tile fit `CBLAS_INT`/`int` (`src/starpu/gemm.cc.in:473-502`; sizes are unbounded here). For `gemm_ex` see
`Model/GemmEx.lean`.
-/
namespace NNTile
variable {α : Type}

/-- `class TransOp`, `include/nntile/constants.hh:25-49`: the constructor throws for any other value. -/
inductive TransOp where
  | noTrans
  | trans
  deriving DecidableEq, Repr

/-- `switch(trans.value) { case TransOp::NoTrans: a; case TransOp::Trans: b; }`. -/
def TransOp.sel {β : Type} (t : TransOp) (a b : β) : β := match t with | .noTrans => a | .trans => b

/-- `cblas_?gemm(CblasColMajor, transA, transB, M, N, K, alpha, A, ldA, B, ldB, beta, C, ldC)` called in `src/starpu/gemm.cc.in:39-60`. The BLAS function
is external; it is replaced by its specification (`C` is not read if `beta == 0`; the products are added in the order of `l`). `oA`, `oB`,
`oC`: distance of the pointers passed from the beginning of the buffers. -/
def cblasGemm [FP α] (transA transB : TransOp) (m n k : Nat) (alpha : α) (A : Buf α) (oA ldA : Nat) (B : Buf α) (oB ldB : Nat) (beta : α)
    (oC ldC : Nat) (C : Buf α) : M (Buf α) :=
  forN n (fun j C =>
    forN m (fun i C => do
      let acc ← forN k (fun l acc => do
        let x ← A.rd (oA + transA.sel (i + l*ldA) (l + i*ldA))
        let y ← B.rd (oB + transB.sel (l + j*ldB) (j + l*ldB))
        .ok (acc + x*y)) (0 : α)
      if FP.eqb beta 0 then
        C.wr (oC + (i + j*ldC)) (alpha * acc)
      else do
        let r ← C.rd (oC + (i + j*ldC))
        C.wr (oC + (i + j*ldC)) (alpha * acc + beta * r)) C) C

/-- `starpu::gemm::cpu`, `src/starpu/gemm.cc.in:63-114`. -/
def gemmKernel [FP α] (transA transB : TransOp) (m n k batch : Nat) (alpha : α) (A B : Buf α) (beta : α) (C : Buf α) : M (Buf α) :=
  let ldA := transA.sel m k
  let ldB := transB.sel k n
  let A_offset := m * k
  let B_offset := n * k
  let C_offset := m * n
  forN batch (fun i C => cblasGemm transA transB m n k alpha A (i*A_offset) ldA B (i*B_offset) ldB beta (i*C_offset) m C) C

/-- `starpu::gemm::submit`, `src/starpu/gemm.cc.in:468-551`. -/
def submitGemm [FP α] (transA transB : TransOp) (m n k batch : Nat) (alpha : α) (A B : Handle) (beta : α) (C : Handle) (redux : Bool) : Task1 α :=
  task2 "gemm" A B (reduceMode beta redux) C (fun a b c => gemmKernel transA transB m n k batch alpha a b beta c)

/-- `gemm_check_batch`, `src/tensor/gemm.cc:53-79`. -/
def gemmCheckBatch (A B C : Tensor) (batch_ndim : Nat) : M Unit :=
  forCheck batch_ndim (fun i => do
    checkPair A B (A.ndim - i - 1) (B.ndim - i - 1)
    checkPair A C (A.ndim - i - 1) (C.ndim - i - 1))

/-- `gemm_check_A_B`, `gemm_check_AT_B`, `gemm_check_A_BT`, `gemm_check_AT_BT`, `gemm_check_opA_opB`, `src/tensor/gemm.cc:82-197`. -/
def gemmCheckOpAOpB (transA : TransOp) (A : Tensor) (transB : TransOp) (B : Tensor) (ndim batch_ndim : Nat) : M Unit :=
  match transB with
  | .noTrans => match transA with
    | .noTrans => forCheck ndim (fun i => checkPair A B (A.ndim - batch_ndim - ndim + i) i)
    | .trans => forCheck ndim (fun i => checkPair A B i i)
  | .trans => match transA with
    | .noTrans => forCheck ndim (fun i => checkPair A B (A.ndim - batch_ndim - ndim + i) (B.ndim - batch_ndim - ndim + i))
    | .trans => forCheck ndim (fun i => checkPair A B i (B.ndim - batch_ndim - ndim + i))

/-- `gemm_check_A_C`, `gemm_check_AT_C`, `gemm_check_opA_C`, `src/tensor/gemm.cc:200-254`. The loop counter of the second loop starts at `ndim` in the code. -/
def gemmCheckOpAC (transA : TransOp) (A C : Tensor) (ndim batch_ndim : Nat) : M Unit :=
  match transA with
  | .noTrans => forCheck (A.ndim - batch_ndim - ndim) (fun i => checkPair A C i i)
  | .trans => forCheck (A.ndim - batch_ndim - ndim) (fun i => checkPair A C (ndim + i) i)

/-- `gemm_check_B_C`, `gemm_check_BT_C`, `gemm_check_opB_C`, `src/tensor/gemm.cc:257-311`. The loop counter of the first loop starts at `ndim` in the code. -/
def gemmCheckOpBC (transB : TransOp) (B C : Tensor) (ndim batch_ndim : Nat) : M Unit :=
  match transB with
  | .noTrans => forCheck (B.ndim - batch_ndim - ndim) (fun i => checkPair B C (ndim + i) (C.ndim + (ndim + i) - B.ndim))
  | .trans => forCheck (B.ndim - batch_ndim - ndim) (fun i => checkPair B C i (C.ndim + ndim + i - B.ndim))

/-- `gemm_check_ndim`, `gemm_check`, `src/tensor/gemm.cc:24-50`, `src/tensor/gemm.cc:314-328`. -/
def gemmCheck (transA : TransOp) (A : Tensor) (transB : TransOp) (B C : Tensor) (ndim batch_ndim : Int) : M Unit := do
  throwIf (ndim < 0) "ndim < 0"
  throwIf (batch_ndim < 0) "batch_ndim < 0"
  throwIf (A.ndim < batch_ndim + ndim) "A.ndim < batch_ndim+ndim"
  throwIf (B.ndim < batch_ndim + ndim) "B.ndim < batch_ndim+ndim"
  throwIf ((A.ndim : Int) + B.ndim ≠ C.ndim + 2*ndim + batch_ndim) "A.ndim + B.ndim != C.ndim + 2*ndim + batch_ndim"
  gemmCheckBatch A B C batch_ndim.toNat
  gemmCheckOpAOpB transA A transB B ndim.toNat batch_ndim.toNat
  gemmCheckOpAC transA A C ndim.toNat batch_ndim.toNat
  gemmCheckOpBC transB B C ndim.toNat batch_ndim.toNat

/-- `traits.matrix_shape[i][0]` and `traits.matrix_shape[i][1]` for a shape `S` (`C02_metadata`). -/
def msRows (S : List Nat) (i : Nat) : Nat := (S.take i).prod
def msCols (S : List Nat) (i : Nat) : Nat := (S.drop i).prod

/-- `gemm_async`, `src/tensor/gemm.cc:344-473`. -/
def gemmAsync [FP α] (alpha : α) (transA : TransOp) (A : Tensor) (transB : TransOp) (B : Tensor) (beta : α) (C : Tensor) (ndim batch_ndim : Int)
    (redux : Bool) : M (List (Task1 α)) := do
  gemmCheck transA A transB B C ndim batch_ndim
  let nd := ndim.toNat
  let bn := batch_ndim.toNat
  let d := A.ndim - bn - nd
  let m := msRows C.grid d
  let batch := msCols C.grid (C.ndim - bn)
  let n := msCols C.grid d / batch
  let k := transA.sel (msCols A.grid d / batch) (msRows A.grid nd)
  let opA_stride : Nat × Nat := transA.sel (1, m) (k, 1)
  let opB_stride : Nat × Nat := transB.sel (1, k) (n, 1)
  forTasks batch (fun b => forTasks n (fun j => forTasks m (fun i => do
    let C_tile_offset := (b*n + j)*m + i
    let C_tile_handle ← C.handleL C_tile_offset
    let S := C.tshapeL C_tile_offset
    let tile_m := msRows S d
    let tile_batch := msCols S (C.ndim - bn)
    let tile_n := msCols S d / tile_batch
    let tile_k := fun A_tile_offset => transA.sel (msCols (A.tshapeL A_tile_offset) d / tile_batch) (msRows (A.tshapeL A_tile_offset) nd)
    let A_tile_offset := opA_stride.1*i + b*m*k
    let B_tile_offset := opB_stride.2*j + b*n*k
    let A_first_tile_handle ← A.handleL A_tile_offset
    let B_first_tile_handle ← B.handleL B_tile_offset
    let first := submitGemm transA transB tile_m tile_n (tile_k A_tile_offset) tile_batch alpha A_first_tile_handle B_first_tile_handle beta
      C_tile_handle redux
    let rest ← forTasks (k - 1) (fun l => do
      let A_tile_offset := A_tile_offset + (l + 1)*opA_stride.2
      let B_tile_offset := B_tile_offset + (l + 1)*opB_stride.1
      let A_tile_handle ← A.handleL A_tile_offset
      let B_tile_handle ← B.handleL B_tile_offset
      .ok [submitGemm transA transB tile_m tile_n (tile_k A_tile_offset) tile_batch alpha A_tile_handle B_tile_handle 1 C_tile_handle redux])
    .ok (first :: rest))))

end NNTile
