import Verif.Model.Core
/-!
# Codelets: where they may be executed

`where` is a bit mask of kinds of devices (`uint32_t`). `STARPU_CPU` and `STARPU_CUDA` are masks of the StarPU library, here parameters.
-/
namespace NNTile

/-- Constants of the StarPU library: `STARPU_CPU`, `STARPU_CUDA`, `STARPU_MAXIMPLEMENTATIONS`. -/
structure StarPU where
  cpu : BitVec 32
  cuda : BitVec 32
  maxImpl : Nat

/-- The fields of `class Codelet` which decide on where a task may run, `include/nntile/starpu/config.hh:398-473`: `where` of
`starpu_codelet`, `where_default`, and which implementations are set (`cpu_funcs[i] != nullptr`, `cuda_funcs[i] != nullptr`). -/
structure Codelet where
  where_ : BitVec 32
  where_default : BitVec 32
  cpu_funcs : List Bool
  cuda_funcs : List Bool
  deriving DecidableEq

/-- `Codelet()`, `config.hh:404-407`: everything is set to zero (this overwrites the initializer `STARPU_NOWHERE` of `where_default`). -/
def Codelet.new : Codelet := ⟨0, 0, [], []⟩

/-- Loop over the CPU implementations, `config.hh:428-439`; `funcs` says which of the pointers are not null. -/
def Codelet.addCpu (S : StarPU) : List Bool → Codelet → Codelet
  | [], c => c
  | f :: fs, c => Codelet.addCpu S fs
      (if f then { c with cpu_funcs := c.cpu_funcs ++ [true], where_ := S.cpu, where_default := S.cpu }
       else { c with cpu_funcs := c.cpu_funcs ++ [false] })

/-- Loop over the CUDA implementations, `config.hh:445-457`. -/
def Codelet.addCuda (S : StarPU) : List Bool → Codelet → Codelet
  | [], c => c
  | f :: fs, c => Codelet.addCuda S fs
      (if f then { c with cuda_funcs := c.cuda_funcs ++ [true], where_default := c.where_default ||| S.cuda, where_ := c.where_default ||| S.cuda }
       else { c with cuda_funcs := c.cuda_funcs ++ [false] })

/-- `Codelet::init`, `config.hh:408-458` (names, performance model and buffers are left out). -/
def Codelet.init (S : StarPU) (cpu_funcs cuda_funcs : List Bool) (c : Codelet) : M Codelet := do
  throwIf (cpu_funcs.length > S.maxImpl) "Too many CPU func implementations"
  let c := Codelet.addCpu S cpu_funcs c
  throwIf (cuda_funcs.length > S.maxImpl) "Too many CUDA func implementations"
  .ok (Codelet.addCuda S cuda_funcs c)

/-- `Codelet::restrict_where`, `config.hh:459-469`. -/
def Codelet.restrict_where (w : BitVec 32) (c : Codelet) : Codelet :=
  if c.where_default &&& w = w then { c with where_ := w } else c

/-- `Codelet::restore_where`, `config.hh:470-473`. -/
def Codelet.restore_where (c : Codelet) : Codelet := { c with where_ := c.where_default }

/-- A call on a codelet after its initialisation. -/
inductive WhereCall where
  | restrict (w : BitVec 32)
  | restore

/-- One call. -/
def WhereCall.apply : WhereCall → Codelet → Codelet
  | .restrict w, c => c.restrict_where w
  | .restore, c => c.restore_where

/-! ### All codelets of the library -/

/-- Operations in the order of `starpu::init()`, `include/nntile/starpu.hh:98-167`. -/
def initCalls : List String :=
  ["accumulate", "accumulate_hypot", "accumulate_maxsumexp", "axpy", "add_slice", "add_slice3", "add_fiber", "prod_slice", "prod_fiber",
   "prod_fiber3", "clear", "copy", "gelu", "gelutanh", "gelutanh_inplace", "dgelu", "dgelutanh", "drelu", "gemm", "gemm_ex", "hypot",
   "hypot_scalar_inverse", "nrm2", "normalize", "randn", "relu", "relu_forward", "relu_backward", "prod", "subcopy", "sumnorm", "fill",
   "sum_slice", "sum_fiber", "norm_slice", "pow", "softmax", "softmax_inplace", "flash_softmax_gemm",
   "flash_softmax_gemm_backward_sumprod_slice", "flash_softmax_gemm_backward_dq_dk", "flash_maxsumexp", "maxsumexp", "sqrt", "sqrt_inplace",
   "maximum", "addcdiv", "sumprod_slice", "sumprod_fiber", "logsumexp", "total_sum_accum", "subtract_indexed_outputs", "scal", "scal_inplace",
   "gelu_backward", "gelutanh_backward", "add", "add_scalar", "embedding", "embedding_backward", "fp32_to_fp16", "fp16_to_fp32",
   "mask_scalar", "adam_step", "adamw_step", "transpose"]

/-- `starpu::restrict_where`, `include/nntile/starpu.hh:169-238`. -/
def restrictCalls : List String :=
  ["accumulate", "accumulate_hypot", "accumulate_maxsumexp", "axpy", "add_slice", "add_slice3", "add_fiber", "prod_slice", "prod_fiber",
   "prod_fiber3", "clear", "copy", "gelu", "gelutanh", "gelutanh_inplace", "dgelu", "dgelutanh", "drelu", "gemm", "gemm_ex", "hypot",
   "hypot_scalar_inverse", "nrm2", "normalize", "prod", "randn", "relu", "relu_forward", "relu_backward", "subcopy", "sumnorm", "fill",
   "sum_slice", "sum_fiber", "norm_slice", "pow", "softmax", "softmax_inplace", "flash_softmax_gemm",
   "flash_softmax_gemm_backward_sumprod_slice", "flash_softmax_gemm_backward_dq_dk", "flash_maxsumexp", "maxsumexp", "sqrt", "sqrt_inplace",
   "maximum", "addcdiv", "sumprod_slice", "sumprod_fiber", "logsumexp", "total_sum_accum", "subtract_indexed_outputs", "scal", "scal_inplace",
   "gelu_backward", "gelutanh_backward", "add", "add_scalar", "embedding", "embedding_backward", "fp32_to_fp16", "fp16_to_fp32",
   "mask_scalar", "adam_step", "adamw_step", "transpose"]

/-- `starpu::restore_where`, `include/nntile/starpu.hh:240-309`. -/
def restoreCalls : List String :=
  ["accumulate", "accumulate_hypot", "accumulate_maxsumexp", "axpy", "add_slice", "add_slice3", "add_fiber", "prod_slice", "prod_fiber",
   "prod_fiber3", "clear", "copy", "gelu", "gelutanh", "gelutanh_inplace", "dgelu", "dgelutanh", "drelu", "gemm", "gemm_ex", "hypot",
   "hypot_scalar_inverse", "nrm2", "normalize", "prod", "randn", "relu", "relu_forward", "relu_backward", "subcopy", "sumnorm", "fill",
   "sum_slice", "sum_fiber", "norm_slice", "pow", "softmax", "softmax_inplace", "flash_softmax_gemm",
   "flash_softmax_gemm_backward_sumprod_slice", "flash_softmax_gemm_backward_dq_dk", "flash_maxsumexp", "maxsumexp", "sqrt", "sqrt_inplace",
   "maximum", "addcdiv", "sumprod_slice", "sumprod_fiber", "logsumexp", "total_sum_accum", "subtract_indexed_outputs", "scal", "scal_inplace",
   "gelu_backward", "gelutanh_backward", "add", "add_scalar", "embedding", "embedding_backward", "fp32_to_fp16", "fp16_to_fp32",
   "mask_scalar", "adam_step", "adamw_step", "transpose"]

/-- The codelets of each operation (one for each scalar type). Every `src/starpu/<op>.cc[.in]` forwards `restrict_where` and `restore_where` to
each of its codelets, e.g. `src/starpu/adam_step.cc:92-102`. -/
abbrev Codelets := String → List Codelet

/-- Call `f` on the codelets of the listed operations. -/
def Codelets.onAll (f : Codelet → Codelet) (ops : List String) (cs : Codelets) : Codelets :=
  ops.foldl (fun cs op => fun k => if k = op then (cs op).map f else cs k) cs

/-- `nntile::starpu::restrict_where(w)`, `include/nntile/starpu.hh:169-238`. -/
def restrictAll (w : BitVec 32) (cs : Codelets) : Codelets := cs.onAll (Codelet.restrict_where w) restrictCalls
/-- `nntile::starpu::restore_where()`, `include/nntile/starpu.hh:240-309`. -/
def restoreAll (cs : Codelets) : Codelets := cs.onAll Codelet.restore_where restoreCalls

/-- One call on the library. -/
def WhereCall.applyAll : WhereCall → Codelets → Codelets
  | .restrict w, cs => restrictAll w cs
  | .restore, cs => restoreAll cs

end NNTile
