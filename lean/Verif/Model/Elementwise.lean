import Verif.Model.Task
import Verif.Model.FP
/-!
# Element-wise operations: kernels, StarPU submission, tensor functions

Kernels are `src/kernel/<op>/cpu.cc:cpu`, tasks are `src/starpu/<op>.cc:submit`, tensor functions are `src/tensor/<op>.cc:<op>_async`.
Not modelled: the checks that a size fits `CBLAS_INT`/`int` in `scal_inplace` and `axpy` (sizes are unbounded here), the failure of
`starpu_task_insert` itself. CUDA variants: `Model/CudaKernels.lean`.
-/
namespace NNTile
variable {α : Type}

/-! ### Kernels -/

/-- `src/kernel/fill/cpu.cc:25-38`. -/
def fillKernel (nelems : Nat) (val : α) (data : Buf α) : M (Buf α) :=
  forN nelems (fun i data => data.wr i val) data

/-- `src/starpu/clear.cc:30-41`: `memset` of the whole buffer to zero (the representation of `0`). -/
def clearKernel [FP α] (data : Buf α) : M (Buf α) := .ok ⟨data.size, fun k => if k < data.size then some 0 else data.data k⟩

/-- `src/kernel/scal/cpu.cc:25-42`. -/
def scalKernel [FP α] (nelems : Nat) (alpha : α) (src dst : Buf α) : M (Buf α) :=
  forN nelems (fun i dst => do
    let x ← src.rd i
    dst.wr i (alpha * x)) dst

/-- `cblas_?scal(N, alpha, X, 1)`, `src/starpu/scal_inplace.cc.in:36-67`; nothing happens if `N <= 0`. -/
def scalInplaceKernel [FP α] (nelems : Int) (alpha : α) (data : Buf α) : M (Buf α) :=
  forN nelems.toNat (fun i data => do
    let x ← data.rd i
    data.wr i (alpha * x)) data

/-- `src/kernel/add/cpu.cc:26-44`. -/
def addKernel [FP α] (nelems : Nat) (alpha : α) (src : Buf α) (beta : α) (dst : Buf α) : M (Buf α) :=
  forN nelems (fun i dst => do
    let x ← src.rd i
    let y ← dst.rd i
    dst.wr i (alpha * x + beta * y)) dst

/-- `src/kernel/add_scalar/cpu.cc:26-41`. -/
def addScalarKernel [FP α] (nelems : Nat) (alpha beta : α) (dst : Buf α) : M (Buf α) :=
  forN nelems (fun i dst => do
    let y ← dst.rd i
    dst.wr i (alpha + beta * y)) dst

/-- `src/kernel/prod/cpu.cc:25-40`. -/
def prodKernel [FP α] (nelems : Nat) (src dst : Buf α) : M (Buf α) :=
  forN nelems (fun i dst => do
    let y ← dst.rd i
    let x ← src.rd i
    dst.wr i (y * x)) dst

/-- `src/kernel/addcdiv/cpu.cc:25-43`. -/
def addcdivKernel [FP α] (val eps : α) (nelems : Nat) (nom denom res : Buf α) : M (Buf α) :=
  forN nelems (fun i res => do
    let r ← res.rd i
    let a ← nom.rd i
    let b ← denom.rd i
    res.wr i (r + val * a / (b + eps))) res

/-- `src/kernel/hypot/cpu.cc:26-75`. -/
def hypotKernel [FP α] (nelems : Nat) (alpha : α) (src : Buf α) (beta : α) (dst : Buf α) : M (Buf α) :=
  if FP.eqb alpha 0 then
    if FP.eqb beta 0 then forN nelems (fun i dst => dst.wr i 0) dst
    else forN nelems (fun i dst => do
      let y ← dst.rd i
      dst.wr i (FP.fabs (beta * y))) dst
  else
    if FP.eqb beta 0 then forN nelems (fun i dst => do
      let x ← src.rd i
      dst.wr i (FP.fabs (alpha * x))) dst
    else forN nelems (fun i dst => do
      let x ← src.rd i
      let y ← dst.rd i
      dst.wr i (FP.hypot (alpha * x) (beta * y))) dst

/-- `src/kernel/pow/cpu.cc:26-48`. -/
def powKernel [FP α] (nelems : Nat) (alpha exp : α) (data : Buf α) : M (Buf α) :=
  forN nelems (fun i data => do
    let z ← data.rd i
    if FP.eqb exp (-1) then data.wr i (alpha / z)
    else data.wr i (alpha * FP.pow z exp)) data

/-- `src/kernel/sqrt/cpu.cc:27-40`. -/
def sqrtKernel [FP α] (nelems : Nat) (src dst : Buf α) : M (Buf α) :=
  forN nelems (fun i dst => do
    let x ← src.rd i
    dst.wr i (FP.sqrt x)) dst

/-- `src/kernel/sqrt_inplace/cpu.cc:27-39`. -/
def sqrtInplaceKernel [FP α] (nelems : Nat) (data : Buf α) : M (Buf α) :=
  forN nelems (fun i data => do
    let x ← data.rd i
    data.wr i (FP.sqrt x)) data

/-- `src/kernel/maximum/cpu.cc:27-42`. -/
def maximumKernel [FP α] (nelems : Nat) (src dst : Buf α) : M (Buf α) :=
  forN nelems (fun i dst => do
    let x ← src.rd i
    let y ← dst.rd i
    dst.wr i (FP.fmax x y)) dst

/-- `src/kernel/relu/cpu.cc:26-42`. -/
def reluKernel [FP α] (nelems : Nat) (data : Buf α) : M (Buf α) :=
  forN nelems (fun i data => do
    let z ← data.rd i
    data.wr i (FP.fmax z 0)) data

/-- `src/kernel/relu_forward/cpu.cc:26-42`. -/
def reluForwardKernel [FP α] (nelems : Nat) (src dst : Buf α) : M (Buf α) :=
  forN nelems (fun i dst => do
    let x ← src.rd i
    dst.wr i (FP.fmax x 0)) dst

/-- `src/kernel/relu_backward/cpu.cc:26-46`. -/
def reluBackwardKernel [FP α] (nelems : Nat) (x dy dx : Buf α) : M (Buf α) :=
  forN nelems (fun i dx => do
    let xi ← x.rd i
    if FP.ltb 0 xi then do
      let d ← dx.rd i
      let g ← dy.rd i
      dx.wr i (d + g)
    else .ok dx) dx

/-- `src/kernel/drelu/cpu.cc:26-46`. -/
def dreluKernel [FP α] (nelems : Nat) (data : Buf α) : M (Buf α) :=
  forN nelems (fun i data => do
    let z ← data.rd i
    if FP.ltb 0 z then data.wr i 1 else data.wr i 0) data

/-- `src/kernel/gelu/cpu.cc:26-45`. -/
def geluKernel [FP α] (nelems : Nat) (data : Buf α) : M (Buf α) :=
  let f1 : α := -1 / FP.sqrt (FP.lit 2)
  forN nelems (fun i data => do
    let z ← data.rd i
    let y := FP.erfc (f1 * z)
    data.wr i ((FP.lit (1/2) * z) * y)) data

/-- `src/kernel/dgelu/cpu.cc:26-49`. -/
def dgeluKernel [FP α] (nelems : Nat) (data : Buf α) : M (Buf α) :=
  let f1 : α := -1 / FP.sqrt (FP.lit 2)
  let f2 : α := 1 / FP.sqrt (FP.lit 2 * FP.pi)
  forN nelems (fun i data => do
    let z ← data.rd i
    let x := FP.exp (-FP.lit (1/2) * z * z)
    let y := FP.erfc (f1 * z)
    data.wr i (z * f2 * x + FP.lit (1/2) * y)) data

/-- `src/kernel/gelu_backward/cpu.cc:27-49`. -/
def geluBackwardKernel [FP α] (nelems : Nat) (x dy dx : Buf α) : M (Buf α) :=
  let f1 : α := -1 / FP.sqrt (FP.lit 2)
  let f2 : α := 1 / FP.sqrt (FP.lit 2 * FP.pi)
  forN nelems (fun i dx => do
    let z ← x.rd i
    let expx := FP.exp (-FP.lit (1/2) * z * z)
    let y := FP.erfc (f1 * z)
    let d ← dx.rd i
    let g ← dy.rd i
    dx.wr i (d + (z * f2 * expx + FP.lit (1/2) * y) * g)) dx

/-- Constant `f2 = sqrt_2/sqrt_pi` of the gelutanh family, e.g. `src/kernel/gelutanh/cpu.cc:45-46`. -/
def gtF2 [FP α] : α := FP.sqrt (FP.lit 2) / FP.sqrt FP.pi
/-- `f3 = -T{2}*f2`. -/
def gtF3 [FP α] : α := -FP.lit 2 * gtF2
/-- `f4 = f3*f1`, `f1 = 0.044715`. -/
def gtF4 [FP α] : α := gtF3 * FP.lit (44715/1000000)
/-- `f5 = T{3}*f4`, `src/kernel/dgelutanh/cpu.cc:46`. -/
def gtF5 [FP α] : α := FP.lit 3 * gtF4

/-- `src/kernel/gelutanh/cpu.cc:26-60`. -/
def gelutanhKernel [FP α] (nelems : Nat) (src dst : Buf α) : M (Buf α) :=
  forN nelems (fun i dst => do
    let z ← src.rd i
    let y1 := gtF4 * z * z
    let y2 := gtF3 + y1
    let c := y1 - (y2 - gtF3)
    let y2 := y2 * z
    let c := c * z
    let y3 := 1 + FP.exp c * FP.exp y2
    dst.wr i (z / y3)) dst

/-- `src/kernel/gelutanh_inplace/cpu.cc:26-52`. -/
def gelutanhInplaceKernel [FP α] (nelems : Nat) (data : Buf α) : M (Buf α) :=
  forN nelems (fun i data => do
    let z ← data.rd i
    let y := z * (gtF3 + gtF4 * z * z)
    data.wr i (z / (1 + FP.exp y))) data

/-- `src/kernel/gelutanh_backward/cpu.cc:27-59`. -/
def gelutanhBackwardKernel [FP α] (nelems : Nat) (x dy dx : Buf α) : M (Buf α) :=
  forN nelems (fun i dx => do
    let z ← x.rd i
    let z2 := z * z
    let y1 := z * (gtF3 + gtF4 * z2)
    let y2 := z * (gtF3 + gtF5 * z2)
    let expy1 := FP.exp y1
    if ! FP.isInf expy1 then do
      let inv := 1 / (expy1 + 1)
      let d ← dx.rd i
      let g ← dy.rd i
      dx.wr i (d + (1 - y2 * (1 - inv)) * inv * g)
    else .ok dx) dx

/-- `src/kernel/dgelutanh/cpu.cc:26-64`. -/
def dgelutanhKernel [FP α] (nelems : Nat) (data : Buf α) : M (Buf α) :=
  forN nelems (fun i data => do
    let z ← data.rd i
    let z2 := z * z
    let y1 := z * (gtF3 + gtF4 * z2)
    let y2 := z * (gtF3 + gtF5 * z2)
    let expy1 := FP.exp y1
    if FP.isInf expy1 then data.wr i 0
    else
      let inv := 1 / (expy1 + 1)
      data.wr i ((1 - y2 * (1 - inv)) * inv)) data

/-- `src/kernel/hypot_scalar_inverse/cpu.cc:26-43`. -/
def hypotScalarInverseKernel [FP α] (nelems : Nat) (eps alpha : α) (dst : Buf α) : M (Buf α) :=
  forN nelems (fun i dst => do
    let y ← dst.rd i
    dst.wr i (FP.lit 1 / FP.hypot (alpha * y) eps)) dst

/-- `cblas_?axpy(nelems, alpha[0], src, 1, dst, 1)`, `src/starpu/axpy.cc.in:37-70`. -/
def axpyKernel [FP α] (nelems : Nat) (alpha src dst : Buf α) : M (Buf α) := do
  let a ← alpha.rd 0
  forN nelems (fun i dst => do
    let x ← src.rd i
    let y ← dst.rd i
    dst.wr i (a * x + y)) dst

/-! ### Tasks -/

/-- A task with one written handle and no other one. -/
def task0 (name : String) (mode : WMode) (dst : Handle) (k : Buf α → M (Buf α)) : Task1 α :=
  ⟨name, [], dst, mode, fun rs b => match rs with
    | [] => k b
    | _ => .error (.ub "buffers")⟩

/-- A task with one read handle and one written handle. -/
def task1 (name : String) (src : Handle) (mode : WMode) (dst : Handle) (k : Buf α → Buf α → M (Buf α)) : Task1 α :=
  ⟨name, [src], dst, mode, fun rs b => match rs with
    | [a] => k a b
    | _ => .error (.ub "buffers")⟩

/-- A task with two read handles and one written handle. -/
def task2 (name : String) (src1 src2 : Handle) (mode : WMode) (dst : Handle) (k : Buf α → Buf α → Buf α → M (Buf α)) : Task1 α :=
  ⟨name, [src1, src2], dst, mode, fun rs b => match rs with
    | [a, a'] => k a a' b
    | _ => .error (.ub "buffers")⟩

/-- `starpu::fill::submit`, `src/starpu/fill.cc:94-115`. -/
def submitFill (nelems : Nat) (val : α) (data : Handle) : Task1 α := task0 "fill" .W data (fillKernel nelems val)
/-- `starpu::clear::submit`, `src/starpu/clear.cc:88-99`. -/
def submitClear [FP α] (data : Handle) : Task1 α := task0 "clear" .W data clearKernel
/-- `starpu::scal::submit`, `src/starpu/scal.cc:99-129`. -/
def submitScal [FP α] (nelems : Nat) (alpha : α) (src dst : Handle) : Task1 α :=
  if FP.eqb alpha 0 then submitClear dst else task1 "scal" src .W dst (scalKernel nelems alpha)
/-- `starpu::scal_inplace::submit`, `src/starpu/scal_inplace.cc.in:152-183`. -/
def submitScalInplace [FP α] (alpha : α) (nelems : Int) (data : Handle) : Task1 α :=
  task0 "scal_inplace" .RW data (scalInplaceKernel nelems alpha)
/-- `starpu::add::submit`, `src/starpu/add.cc:116-162`. The call of `scal_inplace::submit` at l.133 passes `(nelems, beta, dst)` to the
parameters `(T alpha, Index nelems, Handle data)`: the arguments are converted and thereby exchanged. -/
def submitAdd [FP α] (nelems : Nat) (alpha : α) (src : Handle) (beta : α) (dst : Handle) : Task1 α :=
  if FP.eqb beta 0 then submitScal nelems alpha src dst
  else if FP.eqb alpha 0 then submitScalInplace (FP.ofIndex nelems) (FP.toIndex beta) dst
  else task1 "add" src .RW dst (fun a b => addKernel nelems alpha a beta b)
/-- `starpu::add_scalar::submit`, `src/starpu/add_scalar.cc:111-133`. -/
def submitAddScalar [FP α] (nelems : Nat) (alpha beta : α) (dst : Handle) : Task1 α := task0 "add_scalar" .RW dst (addScalarKernel nelems alpha beta)
/-- `starpu::prod::submit`, `src/starpu/prod.cc:97-112`. -/
def submitProd [FP α] (nelems : Nat) (src dst : Handle) : Task1 α := task1 "prod" src .RW dst (prodKernel nelems)
/-- `starpu::addcdiv::submit`, `src/starpu/addcdiv.cc:103-124`. -/
def submitAddcdiv [FP α] (val eps : α) (nelems : Nat) (nom denom src : Handle) : Task1 α :=
  task2 "addcdiv" nom denom .RW src (addcdivKernel val eps nelems)
/-- `starpu::hypot::submit`, `src/starpu/hypot.cc:102-155`. -/
def submitHypot [FP α] (nelems : Nat) (alpha : α) (src : Handle) (beta : α) (dst : Handle) : Task1 α :=
  task1 "hypot" src (if FP.eqb beta 1 then .RW else if FP.eqb beta 0 then .W else .RW) dst (fun a b => hypotKernel nelems alpha a beta b)
/-- `starpu::pow::submit`, `src/starpu/pow.cc:95-117`. -/
def submitPow [FP α] (nelems : Nat) (alpha exp : α) (data : Handle) : Task1 α := task0 "pow" .RW data (powKernel nelems alpha exp)
/-- `starpu::sqrt::submit`, `src/starpu/sqrt.cc:98-116`. -/
def submitSqrt [FP α] (nelems : Nat) (src dst : Handle) : Task1 α := task1 "sqrt" src .W dst (sqrtKernel nelems)
/-- `starpu::sqrt_inplace::submit`, `src/starpu/sqrt_inplace.cc:96-113`. -/
def submitSqrtInplace [FP α] (nelems : Nat) (data : Handle) : Task1 α := task0 "sqrt_inplace" .RW data (sqrtInplaceKernel nelems)
/-- `starpu::maximum::submit`, `src/starpu/maximum.cc:97-112`. -/
def submitMaximum [FP α] (nelems : Nat) (src dst : Handle) : Task1 α := task1 "maximum" src .RW dst (maximumKernel nelems)
/-- `starpu::relu::submit`, `src/starpu/relu.cc:94-108`. -/
def submitRelu [FP α] (nelems : Nat) (data : Handle) : Task1 α := task0 "relu" .RW data (reluKernel nelems)
/-- `starpu::relu_forward::submit`, `src/starpu/relu_forward.cc:96-111`. -/
def submitReluForward [FP α] (nelems : Nat) (src dst : Handle) : Task1 α := task1 "relu_forward" src .W dst (reluForwardKernel nelems)
/-- `starpu::relu_backward::submit_mpi`, `src/starpu/relu_backward.cc:124-168`. -/
def submitReluBackward [FP α] (nelems : Nat) (x dy dx : Handle) : Task1 α := task2 "relu_backward" x dy .RW dx (reluBackwardKernel nelems)
/-- `starpu::drelu::submit`, `src/starpu/drelu.cc:95-109`. -/
def submitDrelu [FP α] (nelems : Nat) (data : Handle) : Task1 α := task0 "drelu" .RW data (dreluKernel nelems)
/-- `starpu::gelu::submit`, `src/starpu/gelu.cc:95-109`. -/
def submitGelu [FP α] (nelems : Nat) (data : Handle) : Task1 α := task0 "gelu" .RW data (geluKernel nelems)
/-- `starpu::dgelu::submit`, `src/starpu/dgelu.cc:95-109`. -/
def submitDgelu [FP α] (nelems : Nat) (data : Handle) : Task1 α := task0 "dgelu" .RW data (dgeluKernel nelems)
/-- `starpu::gelu_backward::submit_mpi`, `src/starpu/gelu_backward.cc:125-162`. -/
def submitGeluBackward [FP α] (nelems : Nat) (x dy dx : Handle) : Task1 α := task2 "gelu_backward" x dy .RW dx (geluBackwardKernel nelems)
/-- `starpu::gelutanh::submit`, `src/starpu/gelutanh.cc:97-114`. -/
def submitGelutanh [FP α] (nelems : Nat) (src dst : Handle) : Task1 α := task1 "gelutanh" src .W dst (gelutanhKernel nelems)
/-- `starpu::gelutanh_inplace::submit`, `src/starpu/gelutanh_inplace.cc:94-108`. -/
def submitGelutanhInplace [FP α] (nelems : Nat) (data : Handle) : Task1 α := task0 "gelutanh_inplace" .RW data (gelutanhInplaceKernel nelems)
/-- `starpu::gelutanh_backward::submit_mpi`, `src/starpu/gelutanh_backward.cc:125-162`. -/
def submitGelutanhBackward [FP α] (nelems : Nat) (x dy dx : Handle) : Task1 α :=
  task2 "gelutanh_backward" x dy .RW dx (gelutanhBackwardKernel nelems)
/-- `starpu::dgelutanh::submit`, `src/starpu/dgelutanh.cc:95-109`. -/
def submitDgelutanh [FP α] (nelems : Nat) (data : Handle) : Task1 α := task0 "dgelutanh" .RW data (dgelutanhKernel nelems)
/-- `starpu::hypot_scalar_inverse::submit`, `src/starpu/hypot_scalar_inverse.cc:98-120`. -/
def submitHypotScalarInverse [FP α] (nelems : Nat) (eps alpha : α) (dst : Handle) : Task1 α :=
  task0 "hypot_scalar_inverse" .RW dst (hypotScalarInverseKernel nelems eps alpha)
/-- `starpu::axpy::submit(Handle alpha, ...)`, `src/starpu/axpy.cc.in:225-256`. -/
def submitAxpy [FP α] (alpha : Handle) (nelems : Nat) (src dst : Handle) : Task1 α := task2 "axpy" alpha src .RW dst (axpyKernel nelems)

/-! ### Tensor functions -/

/-- Number of elements of tile `i`: `get_tile_traits(i).nelems`. -/
def Tensor.tnelems (T : Tensor) (i : Nat) : Nat := (T.tshapeL i).prod

/-- The loop `for(Index i = 0; i < dst.ndim; ++i) { if(dst.shape[i] != src.shape[i]) throw ...; if(dst.basetile_shape[i] !=
src.basetile_shape[i]) throw ...; }` after the check `dst.ndim != src.ndim`, e.g. `src/tensor/add.cc:34-45`. -/
def checkDims : List Nat → List Nat → List Nat → List Nat → M Unit
  | sd :: sds, ss :: sss, bd :: bds, bs :: bss => do
    throwIf (sd ≠ ss) "dst.shape[i] != src.shape[i]"
    throwIf (bd ≠ bs) "dst.basetile_shape[i] != src.basetile_shape[i]"
    checkDims sds sss bds bss
  | _, _, _, _ => .ok ()

/-- Checks of `add`, `scal`, `hypot`, `sqrt`, `relu_forward`, `gelutanh`, e.g. `src/tensor/add.cc:28-45`. -/
def checkSame (dst src : Tensor) : M Unit := do
  throwIf (dst.ndim ≠ src.ndim) "dst.ndim != src.ndim"
  checkDims dst.shape src.shape dst.basetile src.basetile

/-- Checks of `prod`, `maximum`, `axpy`, `relu_backward`, ..., e.g. `src/tensor/prod.cc:30-39`. -/
def checkSame' (src dst : Tensor) : M Unit := do
  throwIf (src.shape ≠ dst.shape) "src.shape != dst.shape"
  throwIf (src.basetile ≠ dst.basetile) "src.basetile_shape != dst.basetile_shape"

/-- A loop over all tiles of one tensor: `for(Index i = 0; i < A.grid.nelems; ++i) submit(A.get_tile_traits(i).nelems, A.get_tile_handle(i))`. -/
def loop0 (A : Tensor) (submit : Nat → Handle → Task1 α) : M (List (Task1 α)) :=
  forTasks A.ntiles (fun i => do
    let h ← A.handleL i
    .ok [submit (A.tnelems i) h])

/-- A loop over all tiles of `src` with the tiles of `dst` of the same number, e.g. `src/tensor/add.cc:53-71`. -/
def loop1 (src dst : Tensor) (submit : Nat → Handle → Handle → Task1 α) : M (List (Task1 α)) :=
  forTasks src.ntiles (fun i => do
    let h ← src.handleL i
    let h' ← dst.handleL i
    .ok [submit (src.tnelems i) h h'])

/-- A loop over all tiles of `x` with the tiles of `dy` and `dx` of the same number, e.g. `src/tensor/relu_backward.cc:49-73`. -/
def loop2 (x dy dx : Tensor) (submit : Nat → Handle → Handle → Handle → Task1 α) : M (List (Task1 α)) :=
  forTasks x.ntiles (fun i => do
    let h ← x.handleL i
    let h' ← dy.handleL i
    let h'' ← dx.handleL i
    .ok [submit (x.tnelems i) h h' h''])

/-- `src/tensor/fill.cc:26-43`. -/
def fillAsync (val : α) (A : Tensor) : M (List (Task1 α)) := loop0 A (fun n h => submitFill n val h)
/-- `src/tensor/clear.cc:23-38`. -/
def clearAsync [FP α] (dst : Tensor) : M (List (Task1 α)) := loop0 dst (fun _ h => submitClear h)
/-- `src/tensor/scal.cc:24-66`. -/
def scalAsync [FP α] (alpha : α) (src dst : Tensor) : M (List (Task1 α)) := do
  checkSame dst src
  loop1 src dst (fun n h h' => submitScal n alpha h h')
/-- `src/tensor/scal_inplace.cc:24-43`. -/
def scalInplaceAsync [FP α] (alpha : α) (data : Tensor) : M (List (Task1 α)) := loop0 data (fun n h => submitScalInplace alpha n h)
/-- `src/tensor/add.cc:25-72`. -/
def addAsync [FP α] (alpha : α) (src : Tensor) (beta : α) (dst : Tensor) : M (List (Task1 α)) := do
  checkSame dst src
  if FP.eqb alpha 0 && FP.eqb beta 1 then .ok []
  else loop1 src dst (fun n h h' => submitAdd n alpha h beta h')
/-- `src/tensor/add_scalar.cc:25-51`. -/
def addScalarAsync [FP α] (alpha beta : α) (dst : Tensor) : M (List (Task1 α)) :=
  if FP.eqb alpha 0 && FP.eqb beta 1 then .ok []
  else loop0 dst (fun n h => submitAddScalar n alpha beta h)
/-- `src/tensor/prod.cc:27-60`. -/
def prodAsync [FP α] (src dst : Tensor) : M (List (Task1 α)) := do
  checkSame' src dst
  loop1 src dst (fun n h h' => submitProd n h h')
/-- `matrix_shape`, `include/nntile/tile/traits.hh:86-105`: for `i = 0..ndim` the pair (product of the first `i` extents, product of the
others) (equal to the model of C02 by `C02_metadata`). -/
def matrixShapeOf (shape : List Nat) : List (Nat × Nat) :=
  (List.range (shape.length + 1)).map (fun i => ((shape.take i).prod, (shape.drop i).prod))
/-- `src/tensor/addcdiv.cc:24-62`: only `matrix_shape` is compared, not `basetile_shape`; the loop runs over the tiles of `src` and takes
the handles of the tiles of `nom` and `denom` with the same number without a bounds check. -/
def addcdivAsync [FP α] (val eps : α) (nom denom src : Tensor) : M (List (Task1 α)) := do
  throwIf (matrixShapeOf nom.shape ≠ matrixShapeOf denom.shape) "Nominator shape is not equal to denominator shape"
  throwIf (matrixShapeOf src.shape ≠ matrixShapeOf nom.shape) "Nominator shape is not equal to source shape"
  forTasks src.ntiles (fun i => do
    let hs ← src.handleL i
    let hn ← nom.handleL i
    let hd ← denom.handleL i
    .ok [submitAddcdiv val eps (src.tnelems i) hn hd hs])
/-- `src/tensor/hypot.cc:24-71`. -/
def hypotAsync [FP α] (alpha : α) (src : Tensor) (beta : α) (dst : Tensor) : M (List (Task1 α)) := do
  checkSame dst src
  if FP.eqb alpha 0 && FP.eqb beta 1 then .ok []
  else loop1 src dst (fun n h h' => submitHypot n alpha h beta h')
/-- `src/tensor/pow.cc:26-44`. -/
def powAsync [FP α] (alpha exp : α) (A : Tensor) : M (List (Task1 α)) := loop0 A (fun n h => submitPow n alpha exp h)
/-- `src/tensor/sqrt.cc:27-69`. -/
def sqrtAsync [FP α] (src dst : Tensor) : M (List (Task1 α)) := do
  checkSame dst src
  loop1 src dst (fun n h h' => submitSqrt n h h')
/-- `src/tensor/sqrt_inplace.cc:27-44`. -/
def sqrtInplaceAsync [FP α] (A : Tensor) : M (List (Task1 α)) := loop0 A (fun n h => submitSqrtInplace n h)
/-- `src/tensor/maximum.cc:27-60`. -/
def maximumAsync [FP α] (src dst : Tensor) : M (List (Task1 α)) := do
  checkSame' src dst
  loop1 src dst (fun n h h' => submitMaximum n h h')
/-- `src/tensor/relu.cc:26-43`. -/
def reluAsync [FP α] (A : Tensor) : M (List (Task1 α)) := loop0 A (fun n h => submitRelu n h)
/-- `src/tensor/relu_forward.cc:23-54` (`nelems` is taken from the tile of `dst`; it is the same number after the checks). -/
def reluForwardAsync [FP α] (src dst : Tensor) : M (List (Task1 α)) := do
  checkSame' src dst
  loop1 src dst (fun n h h' => submitReluForward n h h')
/-- `src/tensor/relu_backward.cc:26-74`. -/
def reluBackwardAsync [FP α] (x dy dx : Tensor) : M (List (Task1 α)) := do
  checkSame' x dy
  checkSame' x dx
  loop2 x dy dx (fun n h h' h'' => submitReluBackward n h h' h'')
/-- `src/tensor/drelu.cc:26-43`. -/
def dreluAsync [FP α] (A : Tensor) : M (List (Task1 α)) := loop0 A (fun n h => submitDrelu n h)
/-- `src/tensor/gelu.cc:26-43`. -/
def geluAsync [FP α] (A : Tensor) : M (List (Task1 α)) := loop0 A (fun n h => submitGelu n h)
/-- `src/tensor/dgelu.cc:26-43`. -/
def dgeluAsync [FP α] (A : Tensor) : M (List (Task1 α)) := loop0 A (fun n h => submitDgelu n h)
/-- `src/tensor/gelu_backward.cc:27-75`. -/
def geluBackwardAsync [FP α] (x dy dx : Tensor) : M (List (Task1 α)) := do
  checkSame' x dy
  checkSame' x dx
  loop2 x dy dx (fun n h h' h'' => submitGeluBackward n h h' h'')
/-- `src/tensor/gelutanh.cc:26-68`. -/
def gelutanhAsync [FP α] (src dst : Tensor) : M (List (Task1 α)) := do
  checkSame dst src
  loop1 src dst (fun n h h' => submitGelutanh n h h')
/-- `src/tensor/gelutanh_inplace.cc:26-43`. -/
def gelutanhInplaceAsync [FP α] (A : Tensor) : M (List (Task1 α)) := loop0 A (fun n h => submitGelutanhInplace n h)
/-- `src/tensor/gelutanh_backward.cc:27-75`. -/
def gelutanhBackwardAsync [FP α] (x dy dx : Tensor) : M (List (Task1 α)) := do
  checkSame' x dy
  checkSame' x dx
  loop2 x dy dx (fun n h h' h'' => submitGelutanhBackward n h h' h'')
/-- `src/tensor/dgelutanh.cc:26-43`. -/
def dgelutanhAsync [FP α] (A : Tensor) : M (List (Task1 α)) := loop0 A (fun n h => submitDgelutanh n h)
/-- `src/tensor/hypot_scalar_inverse.cc:23-43`. -/
def hypotScalarInverseAsync [FP α] (eps alpha : α) (dst : Tensor) : M (List (Task1 α)) :=
  loop0 dst (fun n h => submitHypotScalarInverse n eps alpha h)
/-- `src/tensor/axpy.cc:28-86`. -/
def axpyAsync [FP α] (alpha src dst : Tensor) : M (List (Task1 α)) := do
  throwIf (alpha.shape.length ≠ 0) "alpha.shape.size() != 0"
  throwIf (src.shape ≠ dst.shape) "src.shape != dst.shape"
  throwIf (src.basetile ≠ dst.basetile) "src.basetile_shape != dst.basetile_shape"
  let ha ← alpha.handleL 0
  forTasks src.ntiles (fun i => do
    let h ← src.handleL i
    let h' ← dst.handleL i
    .ok [submitAxpy ha (src.tnelems i) h h'])

end NNTile
