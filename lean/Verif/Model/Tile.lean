import Verif.Model.Elementwise
import Verif.Model.Axpy
import Verif.Model.Copy
import Verif.Model.Reduce
import Verif.Model.Slice
import Verif.Model.Fiber
import Verif.Model.Maxsumexp
import Verif.Model.Softmax
import Verif.Model.Sumnorm
import Verif.Model.CrossEntropy
import Verif.Model.Gemm
import Verif.Model.Nrm2
import Verif.Model.MaskScalar
import Verif.Model.Adam
import Verif.Model.Randn
/-!
# Tile layer: `src/tile/*.cc`

The functions `nntile::tile::<op>_async` work on single tiles: they check the shapes and submit the StarPU task. The blocking versions call them and
wait for all tasks. `fp16_to_fp32`, `fp32_to_fp16` are in `Model/Fp16.lean`; `gemm_ex` is in `Model/GemmEx.lean`; `copy_intersection` is modelled in `Model/CopyIntersection.lean`.
-/
namespace NNTile
variable {α : Type}

/-- `Tile<T>`, `include/nntile/tile/tile.hh:34-87`: the constructor guarantees a positive `shape` (`C02_traits_accept_iff`). `id` stands for the
handle. -/
structure Tile where
  id : Nat
  shape : List Nat
  deriving DecidableEq, Repr

/-- Invariant established by the constructor. -/
def Tile.WF (T : Tile) : Prop := Pos T.shape
/-- `ndim`. -/
def Tile.ndim (T : Tile) : Nat := T.shape.length
/-- `nelems`. -/
def Tile.nelems (T : Tile) : Nat := T.shape.prod
/-- The StarPU handle. -/
def Tile.handle (T : Tile) : Handle := (T.id, 0)

/-! ### Checks -/

/-- `for(Index i = 0; i < dst.ndim; ++i) if(dst.shape[i] != src.shape[i]) throw ...;`, e.g. `src/tile/add.cc:34-40`. -/
def tileCheckDims : List Nat → List Nat → M Unit
  | sd :: sds, ss :: sss => do
    throwIf (sd ≠ ss) "dst.shape[i] != src.shape[i]"
    tileCheckDims sds sss
  | _, _ => .ok ()

/-- `src/tile/add.cc:29-40`, `src/tile/scal.cc:28-39`, `src/tile/hypot.cc:28-39`. -/
def tileCheckSame (dst src : Tile) : M Unit := do
  throwIf (dst.ndim ≠ src.ndim) "dst.ndim != src.ndim"
  tileCheckDims dst.shape src.shape

/-- `if(src.shape != dst.shape) throw ...;`. -/
def tileCheckShape (src dst : Tile) : M Unit := throwIf (src.shape ≠ dst.shape) "src.shape != dst.shape"

/-- `if(A.shape[i] != B.shape[j]) throw ...;`. -/
def tileCheckPair (A B : Tile) (i j : Nat) : M Unit := do
  let a ← vget A.shape i
  let b ← vget B.shape j
  throwIf (a ≠ b) "A.shape[i] != B.shape[j]"

/-- `src/tile/add_slice.cc:52-65` and the same lines of `add_slice3.cc`, `prod_slice.cc`, `sumprod_slice.cc`, `norm_slice.cc`; the loop with two
counters of `src/tile/sum_slice.cc:51-61` does the same comparisons in the same order. -/
def tileCheckErase (A B : Tile) (axis : Nat) : M Unit := do
  forCheck axis (fun i => tileCheckPair A B i i)
  forCheck (A.ndim - (axis + 1)) (fun i => tileCheckPair A B (axis + 1 + i) (axis + i))

/-- `src/tile/add_fiber.cc:52-63`, `src/tile/sum_fiber.cc:48-59`. -/
def tileCheckFiber (src dst : Tile) (axis batch_ndim : Nat) : M Unit := do
  tileCheckPair src dst 0 axis
  forCheck batch_ndim (fun i => tileCheckPair src dst (i + 1) (dst.ndim - batch_ndim + i))

/-- `src/tile/maxsumexp.cc:52-65`, `src/tile/sumnorm.cc:52-65`, `src/tile/normalize.cc:71-85`, `src/tile/softmax.cc:55-68`,
`src/tile/softmax_inplace.cc:51-64`. -/
def tileCheckMse (A B : Tile) (axis : Nat) : M Unit := do
  forCheck axis (fun i => tileCheckPair A B i (i + 1))
  forCheck (A.ndim - (axis + 1)) (fun i => tileCheckPair A B (axis + 1 + i) (axis + 1 + i))

/-! ### Element-wise operations -/

/-- `src/tile/clear.cc:24-28`. -/
def tileClear [FP α] (dst : Tile) : M (List (Task1 α)) := .ok [submitClear dst.handle]
/-- `src/tile/fill.cc:26-31`. -/
def tileFill (val : α) (A : Tile) : M (List (Task1 α)) := .ok [submitFill A.nelems val A.handle]
/-- `src/tile/scal.cc:24-42`. -/
def tileScal [FP α] (alpha : α) (src dst : Tile) : M (List (Task1 α)) := do
  tileCheckSame dst src
  .ok [submitScal src.nelems alpha src.handle dst.handle]
/-- `src/tile/scal_inplace.cc:24-29`. -/
def tileScalInplace [FP α] (alpha : α) (data : Tile) : M (List (Task1 α)) := .ok [submitScalInplace alpha data.nelems data.handle]
/-- `src/tile/add.cc:25-48`. -/
def tileAdd [FP α] (alpha : α) (src : Tile) (beta : α) (dst : Tile) : M (List (Task1 α)) := do
  tileCheckSame dst src
  if FP.eqb alpha 0 && FP.eqb beta 1 then .ok []
  else .ok [submitAdd src.nelems alpha src.handle beta dst.handle]
/-- `src/tile/add_scalar.cc:25-35`. -/
def tileAddScalar [FP α] (alpha beta : α) (dst : Tile) : M (List (Task1 α)) :=
  if FP.eqb alpha 0 && FP.eqb beta 1 then .ok []
  else .ok [submitAddScalar dst.nelems alpha beta dst.handle]
/-- `src/tile/prod.cc:27-37`. -/
def tileProd [FP α] (src dst : Tile) : M (List (Task1 α)) := do
  tileCheckShape src dst
  .ok [submitProd src.nelems src.handle dst.handle]
/-- `src/tile/addcdiv.cc:30-44`. -/
def tileAddcdiv [FP α] (val eps : α) (nom denom src : Tile) : M (List (Task1 α)) := do
  tileCheckShape nom denom
  tileCheckShape nom src
  .ok [submitAddcdiv val eps src.nelems nom.handle denom.handle src.handle]
/-- `src/tile/hypot.cc:24-47`. -/
def tileHypot [FP α] (alpha : α) (src : Tile) (beta : α) (dst : Tile) : M (List (Task1 α)) := do
  tileCheckSame dst src
  if FP.eqb alpha 0 && FP.eqb beta 1 then .ok []
  else .ok [submitHypot src.nelems alpha src.handle beta dst.handle]
/-- `src/tile/pow.cc:26-31`. -/
def tilePow [FP α] (alpha exp : α) (A : Tile) : M (List (Task1 α)) := .ok [submitPow A.nelems alpha exp A.handle]
/-- `src/tile/sqrt.cc:27-32`: no checks. -/
def tileSqrt [FP α] (src dst : Tile) : M (List (Task1 α)) := .ok [submitSqrt src.nelems src.handle dst.handle]
/-- `src/tile/sqrt_inplace.cc:27-32`. -/
def tileSqrtInplace [FP α] (A : Tile) : M (List (Task1 α)) := .ok [submitSqrtInplace A.nelems A.handle]
/-- `src/tile/maximum.cc:27-37`. -/
def tileMaximum [FP α] (src dst : Tile) : M (List (Task1 α)) := do
  tileCheckShape src dst
  .ok [submitMaximum src.nelems src.handle dst.handle]
/-- `src/tile/relu.cc:26-31`. -/
def tileRelu [FP α] (A : Tile) : M (List (Task1 α)) := .ok [submitRelu A.nelems A.handle]
/-- `src/tile/relu_forward.cc:23-33`. -/
def tileReluForward [FP α] (src dst : Tile) : M (List (Task1 α)) := do
  tileCheckShape src dst
  .ok [submitReluForward src.nelems src.handle dst.handle]
/-- `src/tile/relu_backward.cc:26-41` (`starpu::relu_backward::submit` passes the same arguments and modes as `submit_mpi`). -/
def tileReluBackward [FP α] (x dy dx : Tile) : M (List (Task1 α)) := do
  tileCheckShape x dy
  tileCheckShape x dx
  .ok [submitReluBackward x.nelems x.handle dy.handle dx.handle]
/-- `src/tile/drelu.cc:26-31`. -/
def tileDrelu [FP α] (A : Tile) : M (List (Task1 α)) := .ok [submitDrelu A.nelems A.handle]
/-- `src/tile/gelu.cc:26-31`. -/
def tileGelu [FP α] (A : Tile) : M (List (Task1 α)) := .ok [submitGelu A.nelems A.handle]
/-- `src/tile/dgelu.cc:26-31`. -/
def tileDgelu [FP α] (A : Tile) : M (List (Task1 α)) := .ok [submitDgelu A.nelems A.handle]
/-- `src/tile/gelu_backward.cc:27-42`. -/
def tileGeluBackward [FP α] (x dy dx : Tile) : M (List (Task1 α)) := do
  tileCheckShape x dy
  tileCheckShape x dx
  .ok [submitGeluBackward x.nelems x.handle dy.handle dx.handle]
/-- `src/tile/gelutanh.cc:26-31`: no checks. -/
def tileGelutanh [FP α] (src dst : Tile) : M (List (Task1 α)) := .ok [submitGelutanh src.nelems src.handle dst.handle]
/-- `src/tile/gelutanh_inplace.cc:26-31`. -/
def tileGelutanhInplace [FP α] (A : Tile) : M (List (Task1 α)) := .ok [submitGelutanhInplace A.nelems A.handle]
/-- `src/tile/gelutanh_backward.cc:27-42`. -/
def tileGelutanhBackward [FP α] (x dy dx : Tile) : M (List (Task1 α)) := do
  tileCheckShape x dy
  tileCheckShape x dx
  .ok [submitGelutanhBackward x.nelems x.handle dy.handle dx.handle]
/-- `src/tile/dgelutanh.cc:26-31`. -/
def tileDgelutanh [FP α] (A : Tile) : M (List (Task1 α)) := .ok [submitDgelutanh A.nelems A.handle]
/-- `axpy_async(const Tile<T> &alpha, ...)`, `src/tile/axpy.cc:27-41`. -/
def tileAxpy [FP α] (alpha src dst : Tile) : M (List (Task1 α)) := do
  throwIf (alpha.shape.length ≠ 0) "alpha.shape.size() != 0"
  tileCheckShape src dst
  .ok [submitAxpy alpha.handle src.nelems src.handle dst.handle]
/-- `axpy_async(T alpha, ...)`, `src/tile/axpy.cc:75-85`. -/
def tileAxpyScalar [FP α] (alpha : α) (src dst : Tile) : M (List (Task1 α)) := do
  tileCheckShape src dst
  .ok [submitAxpyScalar alpha src.nelems src.handle dst.handle]
/-- `src/tile/copy.cc:30-46`. -/
def tileCopy (src dst : Tile) : M (List (Task1 α)) := do
  tileCheckShape src dst
  .ok [submitCopy src.handle dst.handle]

/-! ### Slices and fibers -/

/-- `src/tile/add_slice.cc:23-73`. -/
def tileAddSlice [FP α] (alpha : α) (src : Tile) (beta : α) (dst : Tile) (axis : Int) : M (List (Task1 α)) := do
  throwIf (dst.ndim ≠ src.ndim + 1) "dst.ndim != src.ndim+1"
  throwIf (axis < 0) "axis < 0"
  throwIf (axis ≥ dst.ndim) "axis >= dst.ndim"
  let a := axis.toNat
  tileCheckErase dst src a
  .ok [submitAddSlice (mOf dst.shape a) (nOf dst.shape a) (kOf dst.shape a) alpha src.handle beta dst.handle]
/-- `src/tile/add_slice3.cc:23-82`. -/
def tileAddSlice3 [FP α] (alpha : α) (src1 : Tile) (beta : α) (src2 dst : Tile) (axis : Int) : M (List (Task1 α)) := do
  throwIf (dst.ndim ≠ src1.ndim + 1) "dst.ndim != src1.ndim+1"
  throwIf (dst.ndim ≠ src2.ndim) "dst.ndim != src2.ndim"
  throwIf (axis < 0) "axis < 0"
  throwIf (axis ≥ dst.ndim) "axis >= dst.ndim"
  let a := axis.toNat
  tileCheckErase dst src1 a
  tileCheckShape dst src2
  .ok [submitAddSlice3 (mOf dst.shape a) (nOf dst.shape a) (kOf dst.shape a) alpha src1.handle beta src2.handle dst.handle]
/-- `src/tile/prod_slice.cc:23-72`. -/
def tileProdSlice [FP α] (src : Tile) (alpha : α) (dst : Tile) (axis : Int) : M (List (Task1 α)) := do
  throwIf (dst.ndim ≠ src.ndim + 1) "dst.ndim != src.ndim+1"
  throwIf (axis < 0) "axis < 0"
  throwIf (axis ≥ dst.ndim) "axis >= dst.ndim"
  let a := axis.toNat
  tileCheckErase dst src a
  .ok [submitProdSlice (mOf dst.shape a) (nOf dst.shape a) (kOf dst.shape a) alpha src.handle dst.handle]
/-- `src/tile/add_fiber.cc:23-77`. -/
def tileAddFiber [FP α] (alpha : α) (src : Tile) (beta : α) (dst : Tile) (axis batch_ndim : Int) : M (List (Task1 α)) := do
  throwIf ((src.ndim : Int) ≠ batch_ndim + 1) "src.ndim != batch_ndim+1"
  throwIf (axis < 0) "axis < 0"
  throwIf (axis ≥ dst.ndim - batch_ndim) "axis >= dst.ndim-batch_ndim"
  let a := axis.toNat
  tileCheckFiber src dst a batch_ndim.toNat
  if FP.eqb alpha 0 then .ok []
  else
    let batch := (src.shape.drop 1).prod
    .ok [submitAddFiber (mOf dst.shape a) (nOf dst.shape a / batch) (kOf dst.shape a) batch alpha src.handle beta dst.handle]
/-- `src/tile/prod_fiber.cc:23-62`. -/
def tileProdFiber [FP α] (src : Tile) (alpha : α) (dst : Tile) (axis : Int) : M (List (Task1 α)) := do
  throwIf (src.ndim ≠ 1) "src.ndim != 1"
  throwIf (axis < 0) "axis < 0"
  throwIf (axis ≥ dst.ndim) "axis >= dst.ndim"
  let a := axis.toNat
  tileCheckPair src dst 0 a
  .ok [submitProdFiber (mOf dst.shape a) (nOf dst.shape a) (kOf dst.shape a) alpha src.handle dst.handle]
/-- `src/tile/prod_fiber3.cc:23-70`. -/
def tileProdFiber3 [FP α] (src1 : Tile) (alpha : α) (src2 dst : Tile) (axis : Int) : M (List (Task1 α)) := do
  throwIf (src1.ndim ≠ 1) "src1.ndim != 1"
  throwIf (src2.ndim ≠ dst.ndim) "src2.ndim != dst.ndim"
  throwIf (axis < 0) "axis < 0"
  throwIf (axis ≥ dst.ndim) "axis >= dst.ndim"
  let a := axis.toNat
  tileCheckPair src1 dst 0 a
  tileCheckShape src2 dst
  .ok [submitProdFiber3 (mOf dst.shape a) (nOf dst.shape a) (kOf dst.shape a) alpha src1.handle src2.handle dst.handle]

/-! ### Reductions (`redux` has its default value) -/

/-- `src/tile/sum_slice.cc:25-69`. -/
def tileSumSlice [FP α] (alpha : α) (src : Tile) (beta : α) (dst : Tile) (axis : Int) : M (List (Task1 α)) := do
  throwIf ((src.ndim : Int) - 1 ≠ dst.ndim) "src.ndim -1 != dst.ndim"
  throwIf (src.ndim = 0) "Scalar input makes no sense"
  throwIf (axis < 0) "axis < 0"
  throwIf (axis ≥ src.ndim) "axis >= ndim"
  let a := axis.toNat
  tileCheckErase src dst a
  .ok [submitSumSlice (mOf src.shape a) (nOf src.shape a) (kOf src.shape a) alpha src.handle beta dst.handle false]
/-- `src/tile/sumprod_slice.cc:23-74`. -/
def tileSumprodSlice [FP α] (alpha : α) (src1 src2 : Tile) (beta : α) (dst : Tile) (axis : Int) : M (List (Task1 α)) := do
  tileCheckShape src1 src2
  throwIf (src1.ndim ≠ dst.ndim + 1) "src1.ndim != dst.ndim+1"
  throwIf (src1.ndim = 0) "Scalar input makes no sense"
  throwIf (axis < 0) "axis < 0"
  throwIf (axis ≥ src1.ndim) "axis >= ndim"
  let a := axis.toNat
  tileCheckErase src1 dst a
  .ok [submitSumprodSlice (mOf src1.shape a) (nOf src1.shape a) (kOf src1.shape a) alpha src1.handle src2.handle beta dst.handle false]
/-- `src/tile/norm_slice.cc:23-69`. -/
def tileNormSlice [FP α] (alpha : α) (src : Tile) (beta : α) (dst : Tile) (axis : Int) : M (List (Task1 α)) := do
  throwIf ((src.ndim : Int) - 1 ≠ dst.ndim) "src.ndim-1 != dst.ndim"
  throwIf (src.ndim = 0) "Scalar input makes no sense"
  throwIf (axis < 0) "axis < 0"
  throwIf (axis ≥ src.ndim) "axis >= ndim"
  let a := axis.toNat
  tileCheckErase src dst a
  .ok [submitNormSlice (mOf src.shape a) (nOf src.shape a) (kOf src.shape a) alpha src.handle beta dst.handle false]
/-- `src/tile/sum_fiber.cc:23-68`. -/
def tileSumFiber [FP α] (alpha : α) (src : Tile) (beta : α) (dst : Tile) (axis batch_ndim : Int) : M (List (Task1 α)) := do
  throwIf ((dst.ndim : Int) ≠ batch_ndim + 1) "dst.ndim != batch_ndim+1"
  throwIf (src.ndim = 0) "Scalar input makes no sense"
  throwIf (axis < 0) "axis < 0"
  throwIf (axis ≥ src.ndim - batch_ndim) "axis >= ndim-batch_ndim"
  let a := axis.toNat
  tileCheckFiber dst src a batch_ndim.toNat
  let batch := (dst.shape.drop 1).prod
  .ok [submitSumFiber (mOf src.shape a) (nOf src.shape a / batch) (kOf src.shape a) batch alpha src.handle beta dst.handle false]
/-- `src/tile/sumprod_fiber.cc:23-64`. -/
def tileSumprodFiber [FP α] (alpha : α) (src1 src2 : Tile) (beta : α) (dst : Tile) (axis : Int) : M (List (Task1 α)) := do
  tileCheckShape src1 src2
  throwIf (dst.ndim ≠ 1) "dst.ndim != 1"
  throwIf (src1.ndim = 0) "Scalar input makes no sense"
  throwIf (axis < 0) "axis < 0"
  throwIf (axis ≥ src1.ndim) "axis >= ndim"
  let a := axis.toNat
  tileCheckPair src1 dst a 0
  .ok [submitSumprodFiber (mOf src1.shape a) (nOf src1.shape a) (kOf src1.shape a) alpha src1.handle src2.handle beta dst.handle false]

/-! ### Softmax and normalization -/

/-- `src/tile/maxsumexp.cc:24-73`. -/
def tileMaxsumexp [FP α] (src dst : Tile) (axis : Int) : M (List (Task1 α)) := do
  throwIf (src.ndim ≠ dst.ndim) "src.ndim != dst.ndim"
  throwIf (src.ndim = 0) "Scalar input makes no sense"
  throwIf (axis < 0) "axis < 0"
  throwIf (axis ≥ src.ndim) "axis >= ndim"
  let d0 ← vget dst.shape 0
  throwIf (d0 ≠ 2) "dst.shape[0] != 2"
  let a := axis.toNat
  tileCheckMse src dst a
  .ok [submitMaxsumexp (mOf src.shape a) (nOf src.shape a) (kOf src.shape a) src.handle dst.handle false]
/-- `src/tile/sumnorm.cc:24-73`: unlike the tensor function, it does not clear `dst`. -/
def tileSumnorm [FP α] (src dst : Tile) (axis : Int) : M (List (Task1 α)) := do
  throwIf (src.ndim ≠ dst.ndim) "src.ndim != dst.ndim"
  throwIf (src.ndim = 0) "Scalar input makes no sense"
  throwIf (axis < 0) "axis < 0"
  throwIf (axis ≥ src.ndim) "axis >= ndim"
  let d0 ← vget dst.shape 0
  throwIf (d0 ≠ 2) "dst.shape[0] != 2"
  let a := axis.toNat
  tileCheckMse src dst a
  .ok [submitSumnorm (mOf src.shape a) (nOf src.shape a) (kOf src.shape a) src.handle dst.handle]
/-- `src/tile/normalize.cc:24-93`. -/
def tileNormalize [FP α] (gamma_beta sumnorm dst : Tile) (l : Int) (eps : α) (axis : Int) : M (List (Task1 α)) := do
  throwIf (gamma_beta.shape.length ≠ 1) "gamma_beta.shape.size() != 1"
  let g0 ← vget gamma_beta.shape 0
  throwIf (g0 ≠ 2) "gamma_beta.shape[0] != 2"
  throwIf (sumnorm.ndim ≠ dst.ndim) "sumnorm.ndim != dst.ndim"
  throwIf (sumnorm.ndim = 0) "sumnorm.ndim == 0"
  throwIf (l ≤ 0) "l <= 0"
  throwIf ((FP.ltb eps 0 || FP.eqb eps 0) = true) "eps <= 0"
  throwIf (axis < 0) "axis < 0"
  throwIf (axis ≥ dst.ndim) "axis >= dst.ndim"
  let d0 ← vget sumnorm.shape 0
  throwIf (d0 ≠ 2) "sumnorm.shape[0] != 2"
  let a := axis.toNat
  tileCheckMse dst sumnorm a
  .ok [submitNormalize (mOf dst.shape a) (nOf dst.shape a) (kOf dst.shape a) l eps gamma_beta.handle sumnorm.handle dst.handle]
/-- `src/tile/softmax.cc:23-81`. -/
def tileSoftmax [FP α] (maxsumexp src : Tile) (alpha : α) (dst : Tile) (axis : Int) : M (List (Task1 α)) := do
  throwIf (maxsumexp.ndim ≠ dst.ndim) "maxsumexp.ndim != dst.ndim"
  throwIf (src.ndim ≠ dst.ndim) "src.ndim != dst.ndim"
  throwIf (maxsumexp.ndim = 0) "maxsumexp.ndim == 0"
  throwIf (axis < 0) "axis < 0"
  throwIf (axis ≥ dst.ndim) "axis >= dst.ndim"
  let d0 ← vget maxsumexp.shape 0
  throwIf (d0 ≠ 2) "maxsumexp.shape[0] != 2"
  let a := axis.toNat
  tileCheckMse dst maxsumexp a
  tileCheckShape src dst
  .ok [submitSoftmax (mOf dst.shape a) (nOf dst.shape a) (kOf dst.shape a) maxsumexp.handle src.handle alpha dst.handle]
/-- `src/tile/softmax_inplace.cc:23-73`. -/
def tileSoftmaxInplace [FP α] (maxsumexp : Tile) (alpha : α) (dst : Tile) (axis : Int) : M (List (Task1 α)) := do
  throwIf (maxsumexp.ndim ≠ dst.ndim) "maxsumexp.ndim != dst.ndim"
  throwIf (maxsumexp.ndim = 0) "maxsumexp.ndim == 0"
  throwIf (axis < 0) "axis < 0"
  throwIf (axis ≥ dst.ndim) "axis >= dst.ndim"
  let d0 ← vget maxsumexp.shape 0
  throwIf (d0 ≠ 2) "maxsumexp.shape[0] != 2"
  let a := axis.toNat
  tileCheckMse dst maxsumexp a
  .ok [submitSoftmaxInplace (mOf dst.shape a) (nOf dst.shape a) (kOf dst.shape a) maxsumexp.handle alpha dst.handle]
/-- `src/tile/logsumexp.cc:23-51`. -/
def tileLogsumexp [FP α] (src dst : Tile) : M (List (Task1 α)) := do
  throwIf ((src.ndim : Int) - 1 ≠ dst.ndim) "src.ndim - 1 != dst.ndim"
  throwIf (src.ndim = 0) "Scalar input makes no sense"
  let d0 ← vget src.shape 0
  throwIf (d0 ≠ 2) "src.shape[0] != 2"
  forCheck (src.ndim - 1) (fun i => tileCheckPair src dst (i + 1) i)
  .ok [submitLogsumexp dst.nelems src.handle dst.handle]

/-! ### Others -/

/-- `src/tile/total_sum_accum.cc:24-57`. -/
def tileTotalSumAccum [FP α] (asIdx : α → Int) (alpha : α) (logsumexp src labels val : Tile) : M (List (Task1 α)) := do
  throwIf (logsumexp.ndim ≠ labels.ndim) "logsumexp.ndim != labels.ndim"
  throwIf ((logsumexp.ndim : Int) ≠ src.ndim - 1) "logsumexp.ndim != src.ndim-1"
  throwIf (val.ndim ≠ 0) "val.ndim != 0"
  forCheck labels.ndim (fun i => do
    tileCheckPair logsumexp labels i i
    tileCheckPair labels src i (i + 1))
  let n ← vget src.shape 0
  .ok [submitTotalSumAccum asIdx alpha n logsumexp.nelems logsumexp.handle src.handle labels.handle val.handle]
/-- `src/tile/subtract_indexed_outputs.cc:23-42`. -/
def tileSubtractIndexed [FP α] (asIdx : α → Int) (val : α) (labels dst : Tile) : M (List (Task1 α)) := do
  throwIf ((labels.ndim : Int) ≠ dst.ndim - 1) "labels.ndim != dst.ndim-1"
  forCheck labels.ndim (fun i => tileCheckPair labels dst i (i + 1))
  let n ← vget dst.shape 0
  .ok [submitSubtractIndexed asIdx n labels.nelems val labels.handle dst.handle]
/-- `src/tile/nrm2.cc:27-62`. -/
def tileNrm2 [FP α] (alpha : α) (src : Tile) (beta : α) (dst tmp : Tile) : M (List (Task1 α)) := do
  throwIf (dst.ndim ≠ 0) "dst.ndim != 0"
  throwIf (tmp.ndim ≠ 0) "tmp.ndim != 0"
  if FP.eqb beta 0 then
    if FP.eqb alpha 0 then .ok [submitClear dst.handle]
    else if FP.eqb alpha 1 then .ok [submitNrm2 src.nelems src.handle dst.handle]
    else .ok [submitNrm2 src.nelems src.handle dst.handle, submitScalInplace (FP.fabs alpha) dst.nelems dst.handle]
  else .ok [submitNrm2 src.nelems src.handle tmp.handle, submitHypot 1 alpha tmp.handle beta dst.handle]
/-- `src/tile/mask_scalar.cc:27-33`: no checks; the index `A.ndim-1` is out of bounds for a scalar `A`. -/
def tileMaskScalar (asBool : α → Bool) (mask : Tile) (val : α) (A : Tile) : M (List (Task1 α)) := do
  if A.ndim = 0 then .error (.ub "A.matrix_shape[-1]")
  else
    let d ← vget A.shape (A.ndim - 1)
    .ok [submitMaskScalar asBool (msRows A.shape (A.ndim - 1)) d mask.handle val A.handle]
/-- `src/tile/adam_step.cc:34-55`, `src/tile/adamw_step.cc:35-56`. -/
def tileAdam (codelet : String) (kernel : AdamKernel α) (num_iter : Int) (beta_1 beta_2 eps lr weight_decay : α)
    (grad first_moment second_moment p : Tile) : M (List (Task α)) := do
  tileCheckShape grad p
  tileCheckShape first_moment p
  tileCheckShape second_moment p
  .ok [submitAdam codelet kernel num_iter p.nelems beta_1 beta_2 eps lr weight_decay grad.handle first_moment.handle second_moment.handle p.handle]
/-- `src/tile/adam_step.cc:34-55`. -/
def tileAdamStep [FP α] (num_iter : Int) (beta_1 beta_2 eps lr weight_decay : α) (grad first_moment second_moment p : Tile) : M (List (Task α)) :=
  tileAdam "adam_step" adamKernel num_iter beta_1 beta_2 eps lr weight_decay grad first_moment second_moment p
/-- `src/tile/adamw_step.cc:35-56`. -/
def tileAdamwStep [FP α] (num_iter : Int) (beta_1 beta_2 eps lr weight_decay : α) (grad first_moment second_moment p : Tile) : M (List (Task α)) :=
  tileAdam "adamw_step" adamwKernel num_iter beta_1 beta_2 eps lr weight_decay grad first_moment second_moment p
/-- `src/tile/randn.cc:37-79`. The loop of lines 53-64 does the same checks as the one of the tensor function. -/
def tileRandn {α υ : Type} (uniform : Seed → υ) (normal : υ → υ → α) (dst : Tile) (start ushape : List Int) (seed : Seed) : M (List (Task1 α)) := do
  throwIf (dst.ndim ≠ start.length) "dst.ndim != start.size()"
  throwIf (dst.ndim ≠ ushape.length) "dst.ndim != underlying_shape.size()"
  randnCheck start dst.shape ushape
  if dst.ndim ≠ 0 then
    .ok [submitRandn uniform normal dst.nelems seed (start.map Int.toNat) dst.shape (strideFrom 1 dst.shape) (ushape.map Int.toNat) dst.handle]
  else .ok [submitRandn0 uniform normal seed dst.handle]

/-- `gemm_check_batch`, `src/tile/gemm.cc:52-68`. -/
def tileGemmCheckBatch (A B C : Tile) (batch_ndim : Nat) : M Unit :=
  forCheck batch_ndim (fun i => do
    tileCheckPair A B (A.ndim - i - 1) (B.ndim - i - 1)
    tileCheckPair A C (A.ndim - i - 1) (C.ndim - i - 1))
/-- `gemm_check_A_B`, ..., `gemm_check_opA_opB`, `src/tile/gemm.cc:71-163`. -/
def tileGemmCheckOpAOpB (transA : TransOp) (A : Tile) (transB : TransOp) (B : Tile) (ndim batch_ndim : Nat) : M Unit :=
  match transB with
  | .noTrans => match transA with
    | .noTrans => forCheck ndim (fun i => tileCheckPair A B (A.ndim - batch_ndim - ndim + i) i)
    | .trans => forCheck ndim (fun i => tileCheckPair A B i i)
  | .trans => match transA with
    | .noTrans => forCheck ndim (fun i => tileCheckPair A B (A.ndim - batch_ndim - ndim + i) (B.ndim - batch_ndim - ndim + i))
    | .trans => forCheck ndim (fun i => tileCheckPair A B i (B.ndim - batch_ndim - ndim + i))
/-- `gemm_check_A_C`, `gemm_check_AT_C`, `gemm_check_opA_C`, `src/tile/gemm.cc:166-207`. -/
def tileGemmCheckOpAC (transA : TransOp) (A C : Tile) (ndim batch_ndim : Nat) : M Unit :=
  match transA with
  | .noTrans => forCheck (A.ndim - batch_ndim - ndim) (fun i => tileCheckPair A C i i)
  | .trans => forCheck (A.ndim - batch_ndim - ndim) (fun i => tileCheckPair A C (ndim + i) i)
/-- `gemm_check_B_C`, `gemm_check_BT_C`, `gemm_check_opB_C`, `src/tile/gemm.cc:210-251`. -/
def tileGemmCheckOpBC (transB : TransOp) (B C : Tile) (ndim batch_ndim : Nat) : M Unit :=
  match transB with
  | .noTrans => forCheck (B.ndim - batch_ndim - ndim) (fun i => tileCheckPair B C (ndim + i) (C.ndim + (ndim + i) - B.ndim))
  | .trans => forCheck (B.ndim - batch_ndim - ndim) (fun i => tileCheckPair B C i (C.ndim + ndim + i - B.ndim))
/-- `gemm_check`, `src/tile/gemm.cc:24-49,254-268`: `ndim == 0` is rejected, unlike in the tensor function. -/
def tileGemmCheck (transA : TransOp) (A : Tile) (transB : TransOp) (B C : Tile) (ndim batch_ndim : Int) : M Unit := do
  throwIf (ndim ≤ 0) "ndim <= 0"
  throwIf (batch_ndim < 0) "batch_ndim < 0"
  throwIf (A.ndim < batch_ndim + ndim) "A.ndim < batch_ndim+ndim"
  throwIf (B.ndim < batch_ndim + ndim) "B.ndim < batch_ndim+ndim"
  throwIf ((A.ndim : Int) + B.ndim ≠ C.ndim + 2*ndim + batch_ndim) "A.ndim + B.ndim != C.ndim + 2*ndim + batch_ndim"
  tileGemmCheckBatch A B C batch_ndim.toNat
  tileGemmCheckOpAOpB transA A transB B ndim.toNat batch_ndim.toNat
  tileGemmCheckOpAC transA A C ndim.toNat batch_ndim.toNat
  tileGemmCheckOpBC transB B C ndim.toNat batch_ndim.toNat
/-- `src/tile/gemm.cc:281-307`. -/
def tileGemm [FP α] (alpha : α) (transA : TransOp) (A : Tile) (transB : TransOp) (B : Tile) (beta : α) (C : Tile) (ndim batch_ndim : Int) :
    M (List (Task1 α)) := do
  tileGemmCheck transA A transB B C ndim batch_ndim
  let nd := ndim.toNat
  let bn := batch_ndim.toNat
  let d := A.ndim - bn - nd
  let m := msRows C.shape d
  let batch := msCols C.shape (C.ndim - bn)
  let n := msCols C.shape d / batch
  let k := transA.sel (msCols A.shape d / batch) (msRows A.shape nd)
  .ok [submitGemm transA transB m n k batch alpha A.handle B.handle beta C.handle false]

end NNTile
