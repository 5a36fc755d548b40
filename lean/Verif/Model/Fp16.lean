import Verif.Model.Layer
import Verif.Model.Tile
import Verif.Model.PyDispatch
import Verif.Model.CudaKernels
/-!
# Conversion between `fp32_t` and `fp16_t`

Numbers of both types are elements of one set `α` here (a store holds tiles of both types); the conversions of the CUDA library are two functions on it. `cuda` tells whether the library was built with
`NNTILE_USE_CUDA`: otherwise the codelets of the conversions have no implementation, StarPU finds no worker for the task, and `starpu_task_insert` returns an error.
-/
namespace NNTile
variable {α : Type}

/-- `__float2half` and `__half2float` of `cuda_fp16.h`, external. -/
structure HalfConv (α : Type) where
  float2half : α → α
  half2float : α → α

/-- `kernel::fp32_to_fp16::cpu`, `src/kernel/fp32_to_fp16/cpu.cc:25-38`. -/
def fp32ToFp16Kernel (c : HalfConv α) (nelems : Nat) (src dst : Buf α) : M (Buf α) :=
  forN nelems (fun i dst => do
    let x ← src.rd i
    dst.wr i (c.float2half x)) dst

/-- `kernel::fp16_to_fp32::cpu`, `src/kernel/fp16_to_fp32/cpu.cc:25-38`. -/
def fp16ToFp32Kernel (c : HalfConv α) (nelems : Nat) (src dst : Buf α) : M (Buf α) :=
  forN nelems (fun i dst => do
    let x ← src.rd i
    dst.wr i (c.half2float x)) dst

/-- `kernel::fp32_to_fp16::cuda`, `src/kernel/fp32_to_fp16/cuda.cu:25-46`. -/
def fp32ToFp16Cuda (c : HalfConv α) (nelems : Nat) : Launch α := ewLaunch 256 nelems fun i => do
  let x ← ld (α := α) 1 i
  st 0 i (c.float2half x)

/-- `kernel::fp16_to_fp32::cuda`, `src/kernel/fp16_to_fp32/cuda.cu:25-46`. -/
def fp16ToFp32Cuda (c : HalfConv α) (nelems : Nat) : Launch α := ewLaunch 256 nelems fun i => do
  let x ← ld (α := α) 1 i
  st 0 i (c.half2float x)

/-- `starpu::fp32_to_fp16::submit`, `src/starpu/fp32_to_fp16.cc:83-98`, with the codelet initialised at lines 59-71. -/
def submitFp32ToFp16 (cuda : Bool) (c : HalfConv α) (nelems : Nat) (src dst : Handle) : M (Task1 α) := do
  throwIf (cuda = false) "Error in fp32_to_fp16 task submission"
  .ok (task1 "fp32_to_fp16" src .W dst (fp32ToFp16Kernel c nelems))

/-- `starpu::fp16_to_fp32::submit`, `src/starpu/fp16_to_fp32.cc:83-98`, with the codelet initialised at lines 59-71. -/
def submitFp16ToFp32 (cuda : Bool) (c : HalfConv α) (nelems : Nat) (src dst : Handle) : M (Task1 α) := do
  throwIf (cuda = false) "Error in fp16_to_fp32 task submission"
  .ok (task1 "fp16_to_fp32" src .W dst (fp16ToFp32Kernel c nelems))

/-- `tile::fp32_to_fp16_async`, `src/tile/fp32_to_fp16.cc:23-32`. -/
def tileFp32ToFp16 (cuda : Bool) (c : HalfConv α) (src dst : Tile) : M (List (Task1 α)) := do
  tileCheckShape src dst
  let t ← submitFp32ToFp16 cuda c src.nelems src.handle dst.handle
  .ok [t]

/-- `tile::fp16_to_fp32_async`, `src/tile/fp16_to_fp32.cc:23-32`. -/
def tileFp16ToFp32 (cuda : Bool) (c : HalfConv α) (src dst : Tile) : M (List (Task1 α)) := do
  tileCheckShape src dst
  let t ← submitFp16ToFp32 cuda c src.nelems src.handle dst.handle
  .ok [t]

/-- `tensor::fp32_to_fp16_async`, `src/tensor/fp32_to_fp16.cc:23-53`, on a single node. -/
def fp32ToFp16Async (cuda : Bool) (c : HalfConv α) (src dst : Tensor) : M (List (Task1 α)) := do
  checkSame' src dst
  forTasks src.ntiles (fun i => do
    let h ← src.handleL i
    let h' ← dst.handleL i
    let t ← submitFp32ToFp16 cuda c (dst.tnelems i) h h'
    .ok [t])

/-- `tensor::fp16_to_fp32_async`, `src/tensor/fp16_to_fp32.cc:23-53`, on a single node. -/
def fp16ToFp32Async (cuda : Bool) (c : HalfConv α) (src dst : Tensor) : M (List (Task1 α)) := do
  checkSame' src dst
  forTasks src.ntiles (fun i => do
    let h ← src.handleL i
    let h' ← dst.handleL i
    let t ← submitFp16ToFp32 cuda c (dst.tnelems i) h h'
    .ok [t])

/-! ### The layers -/

/-- A tensor in Python: one of the classes `Tensor_fp64`, `Tensor_fp32`, .... -/
structure TypedTensor where
  dtype : DType
  t : Tensor

/-- `TensorMoments`, `wrappers/python/nntile/tensor.py:30-39`; the gradient may be `None`. -/
structure TypedMoments where
  value : TypedTensor
  grad : Option TypedTensor
  gradRequired : Bool

/-- `fp32_to_fp16_async` in Python, `wrappers/python/nntile/nntile_core.cc:720`: pybind11 raises `TypeError` unless the arguments are a `Tensor_fp32` and a `Tensor_fp16`. -/
def pyFp32ToFp16 (cuda : Bool) (c : HalfConv α) (src dst : Option TypedTensor) : M (List (Task1 α)) :=
  match src, dst with
  | some a, some b => do
    throwIf (a.dtype ≠ .fp32 ∨ b.dtype ≠ .fp16) "TypeError"
    fp32ToFp16Async cuda c a.t b.t
  | _, _ => .error (.throw "TypeError")

/-- `fp16_to_fp32_async` in Python, `wrappers/python/nntile/nntile_core.cc:721`. -/
def pyFp16ToFp32 (cuda : Bool) (c : HalfConv α) (src dst : Option TypedTensor) : M (List (Task1 α)) :=
  match src, dst with
  | some a, some b => do
    throwIf (a.dtype ≠ .fp16 ∨ b.dtype ≠ .fp32) "TypeError"
    fp16ToFp32Async cuda c a.t b.t
  | _, _ => .error (.throw "TypeError")

/-- `FP32_to_FP16`, `wrappers/python/nntile/layer/fp32_to_fp16.py:21-31`. -/
structure Fp32ToFp16Layer where
  x : TypedMoments
  y : TypedMoments

/-- `FP32_to_FP16.generate_simple`, `wrappers/python/nntile/layer/fp32_to_fp16.py:35-47`. -/
def Fp32ToFp16Layer.generate (x : TypedMoments) (next : Nat) : M Fp32ToFp16Layer := do
  let yValue ← newTensor next x.value.t.shape x.value.t.basetile
  let yGrad ← newTensor (next + 1) x.value.t.shape x.value.t.basetile
  .ok ⟨x, ⟨⟨.fp16, yValue⟩, some ⟨.fp16, yGrad⟩, true⟩⟩

/-- `FP32_to_FP16.forward_async`, `wrappers/python/nntile/layer/fp32_to_fp16.py:50-51`. -/
def Fp32ToFp16Layer.forwardAsync (cuda : Bool) (c : HalfConv α) (l : Fp32ToFp16Layer) : M (List (Task1 α)) :=
  pyFp32ToFp16 cuda c (some l.x.value) (some l.y.value)

/-- `FP32_to_FP16.backward_async`, `wrappers/python/nntile/layer/fp32_to_fp16.py:54-55`. -/
def Fp32ToFp16Layer.backwardAsync (cuda : Bool) (c : HalfConv α) (l : Fp32ToFp16Layer) : M (List (Task1 α)) :=
  pyFp16ToFp32 cuda c l.y.grad l.x.grad

/-- `FP16_to_FP32`, `wrappers/python/nntile/layer/fp16_to_fp32.py:21-31`. -/
structure Fp16ToFp32Layer where
  x : TypedMoments
  y : TypedMoments

/-- `FP16_to_FP32.generate_simple`, `wrappers/python/nntile/layer/fp16_to_fp32.py:35-47`. -/
def Fp16ToFp32Layer.generate (x : TypedMoments) (next : Nat) : M Fp16ToFp32Layer := do
  let yValue ← newTensor next x.value.t.shape x.value.t.basetile
  let yGrad ← newTensor (next + 1) x.value.t.shape x.value.t.basetile
  .ok ⟨x, ⟨⟨.fp16, yValue⟩, some ⟨.fp16, yGrad⟩, true⟩⟩

/-- `FP16_to_FP32.forward_async`, `wrappers/python/nntile/layer/fp16_to_fp32.py:50-51`. -/
def Fp16ToFp32Layer.forwardAsync (cuda : Bool) (c : HalfConv α) (l : Fp16ToFp32Layer) : M (List (Task1 α)) :=
  pyFp16ToFp32 cuda c (some l.x.value) (some l.y.value)

/-- `FP16_to_FP32.backward_async`, `wrappers/python/nntile/layer/fp16_to_fp32.py:54-55`. -/
def Fp16ToFp32Layer.backwardAsync (cuda : Bool) (c : HalfConv α) (l : Fp16ToFp32Layer) : M (List (Task1 α)) :=
  pyFp32ToFp16 cuda c l.y.grad l.x.grad

end NNTile
