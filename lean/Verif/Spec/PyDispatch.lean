import Verif.Model.PyDispatch
import Mathlib.Data.List.Forall2
/-!
# What the Python functions accept and what they call
-/
namespace NNTile

/-- What an argument is: a number, an integer, a list of integers, a transposition, a tensor of the element type `T` of the call, a tensor of indices, of Booleans, a number or a tensor of type `T`,
the choice of fast single precision (which has a meaning for single precision only). -/
inductive Role where
  | R | I | L | O | T | index | mask | RT | fast

/-- The type of an argument in a call for the element type `d`. -/
def Role.Fits (d : DType) : Role → PyType → Prop
  | .R, t => t = .float ∨ t = .int
  | .I, t => t = .int
  | .L, t => t = .ints
  | .O, t => t = .trans
  | .T, t => t = .tensor d
  | .index, t => t = .tensor .int64
  | .mask, t => t = .tensor .bool
  | .RT, t => t = .float ∨ t = .int ∨ t = .tensor d
  | .fast, t => d = .fp32 → t = .int

/-- A function: its Python name, what its arguments are, how many of the last ones may be omitted, for which element types it is available, the C++ function and its arguments (given those in Python). -/
structure OpSpec where
  name : String
  roles : List Role
  optional : Nat := 0
  types : List DType := [.fp32, .fp64]
  core : String := name
  pass : DType → List PyVal → List PyVal := fun _ a => a

/-- The choice of fast single precision is passed on for single precision only. -/
def passFast (n : Nat) (d : DType) (a : List PyVal) : List PyVal := if d = .fp32 then a else a.set n (pyInt 0)

/-- In Python: parameter, gradient, both moments, learning rate, eps, beta1, beta2, weight decay, iteration. In C++: iteration, beta1, beta2, eps, learning rate, weight decay, gradient, both moments,
parameter. -/
def passAdam (_ : DType) (a : List PyVal) : List PyVal := [9, 6, 7, 5, 4, 8, 1, 2, 3, 0].map fun i => a.getD i pyNone

section
open Role

/-- See `OpSpec`. -/
def spec_gemm_async : OpSpec := { name := "gemm_async", roles := [R, O, T, O, T, R, T, I, I, I], optional := 1, types := [.fp32, .fp64, .fp16] }
/-- See `OpSpec`. -/
def spec_gemm_ex_async : OpSpec := { name := "gemm_ex_async", roles := [R, O, T, O, T, R, T, I, I, I], optional := 1, types := [.fp32] }
/-- See `OpSpec`. -/
def spec_relu_async : OpSpec := { name := "relu_async", roles := [T] }
/-- See `OpSpec`. -/
def spec_relu_forward_async : OpSpec := { name := "relu_forward_async", roles := [T, T] }
/-- See `OpSpec`. -/
def spec_relu_backward_async : OpSpec := { name := "relu_backward_async", roles := [T, T, T] }
/-- See `OpSpec`. -/
def spec_drelu_async : OpSpec := { name := "drelu_async", roles := [T] }
/-- See `OpSpec`. -/
def spec_gelu_async : OpSpec := { name := "gelu_async", roles := [T] }
/-- See `OpSpec`. -/
def spec_dgelu_async : OpSpec := { name := "dgelu_async", roles := [T] }
/-- See `OpSpec`. -/
def spec_gelu_backward_async : OpSpec := { name := "gelu_backward_async", roles := [T, T, T] }
/-- See `OpSpec`. -/
def spec_gelutanh_async : OpSpec := { name := "gelutanh_async", roles := [T, T] }
/-- See `OpSpec`. -/
def spec_gelutanh_inplace_async : OpSpec := { name := "gelutanh_inplace_async", roles := [T] }
/-- See `OpSpec`. -/
def spec_dgelutanh_async : OpSpec := { name := "dgelutanh_async", roles := [T] }
/-- See `OpSpec`. -/
def spec_gelutanh_backward_async : OpSpec := { name := "gelutanh_backward_async", roles := [T, T, T] }
/-- See `OpSpec`. -/
def spec_fill_async : OpSpec := { name := "fill_async", roles := [R, T] }
/-- See `OpSpec`. -/
def spec_sum_slice_async : OpSpec := { name := "sum_slice_async", roles := [R, T, R, T, I, I], optional := 1 }
/-- See `OpSpec`. -/
def spec_sum_fiber_async : OpSpec := { name := "sum_fiber_async", roles := [R, T, R, T, I, I, I], optional := 1 }
/-- See `OpSpec`. -/
def spec_norm_slice_async : OpSpec := { name := "norm_slice_async", roles := [R, T, R, T, I, I], optional := 1 }
/-- See `OpSpec`. -/
def spec_pow_async : OpSpec := { name := "pow_async", roles := [R, R, T] }
/-- See `OpSpec`. -/
def spec_sumnorm_async : OpSpec := { name := "sumnorm_async", roles := [T, T, I] }
/-- See `OpSpec`. -/
def spec_flash_softmax_gemm_async : OpSpec := { name := "flash_softmax_gemm_async", roles := [T, T, T, mask, T, T, T, I, fast], optional := 2, pass := passFast 8 }
/-- See `OpSpec`. -/
def spec_flash_softmax_gemm_backward_async : OpSpec := { name := "flash_softmax_gemm_backward_async", roles := [T, T, T, T, T, T, mask, T, T, T, T, T, I, fast], optional := 2, pass := passFast 13 }
/-- See `OpSpec`. -/
def spec_softmax_async : OpSpec := { name := "softmax_async", roles := [T, T, R, T, I] }
/-- See `OpSpec`. -/
def spec_softmax_inplace_async : OpSpec := { name := "softmax_inplace_async", roles := [T, R, T, I] }
/-- See `OpSpec`. -/
def spec_scatter_async : OpSpec := { name := "scatter_async", roles := [T, T], types := [.fp32, .fp64, .int64, .bool] }
/-- See `OpSpec`. -/
def spec_randn_async : OpSpec := { name := "randn_async", roles := [T, L, L, I, R, R] }
/-- See `OpSpec`. -/
def spec_prod_async : OpSpec := { name := "prod_async", roles := [T, T] }
/-- See `OpSpec`. -/
def spec_add_async : OpSpec := { name := "add_async", roles := [R, T, R, T] }
/-- See `OpSpec`. -/
def spec_nrm2_async : OpSpec := { name := "nrm2_async", roles := [R, T, R, T, T] }
/-- See `OpSpec`. -/
def spec_normalize_async : OpSpec := { name := "normalize_async", roles := [T, T, T, I, R, I] }
/-- See `OpSpec`. -/
def spec_flash_maxsumexp_async : OpSpec := { name := "flash_maxsumexp_async", roles := [T, T, mask, T, T, I, fast], optional := 2, pass := passFast 6 }
/-- See `OpSpec`. -/
def spec_maxsumexp_async : OpSpec := { name := "maxsumexp_async", roles := [T, T, I, I], optional := 1 }
/-- See `OpSpec`. -/
def spec_add_slice_async : OpSpec := { name := "add_slice_async", roles := [R, T, R, T, I] }
/-- See `OpSpec`. -/
def spec_add_slice3_async : OpSpec := { name := "add_slice3_async", roles := [R, T, R, T, T, I] }
/-- See `OpSpec`. -/
def spec_add_fiber_async : OpSpec := { name := "add_fiber_async", roles := [R, T, R, T, I, I] }
/-- See `OpSpec`. -/
def spec_prod_slice_async : OpSpec := { name := "prod_slice_async", roles := [T, R, T, I] }
/-- See `OpSpec`. -/
def spec_prod_fiber_async : OpSpec := { name := "prod_fiber_async", roles := [T, R, T, I] }
/-- See `OpSpec`. -/
def spec_prod_fiber3_async : OpSpec := { name := "prod_fiber3_async", roles := [T, R, T, T, I] }
/-- See `OpSpec`. -/
def spec_add_scalar_async : OpSpec := { name := "add_scalar_async", roles := [R, R, T] }
/-- See `OpSpec`. -/
def spec_gather_async : OpSpec := { name := "gather_async", roles := [T, T], types := [.fp32, .fp64, .int64, .bool] }
/-- See `OpSpec`. -/
def spec_copy_intersection_async : OpSpec := { name := "copy_intersection_async", roles := [T, L, T, L], types := [.fp32, .fp64, .int64] }
/-- See `OpSpec`. -/
def spec_copy_async : OpSpec := { name := "copy_async", roles := [T, T], types := [.fp32, .fp64, .int64] }
/-- See `OpSpec`. -/
def spec_clear_async : OpSpec := { name := "clear_async", roles := [T] }
/-- See `OpSpec`. -/
def spec_axpy_async : OpSpec := { name := "axpy_async", roles := [RT, T, T] }
/-- See `OpSpec`. -/
def spec_sqrt_async : OpSpec := { name := "sqrt_async", roles := [T, T] }
/-- See `OpSpec`. -/
def spec_sqrt_inplace_async : OpSpec := { name := "sqrt_inplace_async", roles := [T] }
/-- See `OpSpec`. -/
def spec_maximum_async : OpSpec := { name := "maximum_async", roles := [T, T] }
/-- See `OpSpec`. -/
def spec_addcdiv_async : OpSpec := { name := "addcdiv_async", roles := [R, R, T, T, T] }
/-- See `OpSpec`. -/
def spec_sumprod_slice_async : OpSpec := { name := "sumprod_slice_async", roles := [R, T, T, R, T, I, I], optional := 1 }
/-- See `OpSpec`. -/
def spec_sumprod_fiber_async : OpSpec := { name := "sumprod_fiber_async", roles := [R, T, T, R, T, I, I], optional := 1 }
/-- See `OpSpec`. -/
def spec_logsumexp_async : OpSpec := { name := "logsumexp_async", roles := [T, T] }
/-- See `OpSpec`. -/
def spec_total_sum_accum_async : OpSpec := { name := "total_sum_accum_async", roles := [R, T, T, index, T] }
/-- See `OpSpec`. -/
def spec_subtract_indexed_outputs_async : OpSpec := { name := "subtract_indexed_outputs_async", roles := [R, index, T] }
/-- See `OpSpec`. -/
def spec_scal_async : OpSpec := { name := "scal_async", roles := [R, T, T] }
/-- See `OpSpec`. -/
def spec_scal_inplace_async : OpSpec := { name := "scal_inplace_async", roles := [R, T] }
/-- See `OpSpec`. -/
def spec_mask_scalar_async : OpSpec := { name := "mask_scalar_async", roles := [mask, R, T, I] }
/-- See `OpSpec`. -/
def spec_embedding_async : OpSpec := { name := "embedding_async", roles := [index, T, T, I] }
/-- See `OpSpec`. -/
def spec_embedding_backward_async : OpSpec := { name := "embedding_backward_async", roles := [index, T, T, I, I], optional := 1 }
/-- See `OpSpec`. -/
def spec_hypot_async : OpSpec := { name := "hypot_async", roles := [R, T, R, T] }
/-- See `OpSpec`. -/
def spec_hypot_scalar_inverse_async : OpSpec := { name := "hypot_scalar_inverse_async", roles := [R, R, T] }
/-- See `OpSpec`. -/
def spec_fused_adam_step : OpSpec := { name := "fused_adam_step", roles := [T, T, T, T, R, R, R, R, R, I], core := "adam_step_async", pass := passAdam }
/-- See `OpSpec`. -/
def spec_fused_adamw_step : OpSpec := { name := "fused_adamw_step", roles := [T, T, T, T, R, R, R, R, R, I], core := "adamw_step_async", pass := passAdam }
/-- See `OpSpec`. -/
def spec_transpose_async : OpSpec := { name := "transpose_async", roles := [R, T, T, I] }

/-- All functions of `nntile.tensor`. -/
def opSpecs : List OpSpec := [spec_gemm_async, spec_gemm_ex_async, spec_relu_async, spec_relu_forward_async, spec_relu_backward_async, spec_drelu_async, spec_gelu_async, spec_dgelu_async, spec_gelu_backward_async, spec_gelutanh_async, spec_gelutanh_inplace_async, spec_dgelutanh_async, spec_gelutanh_backward_async, spec_fill_async, spec_sum_slice_async, spec_sum_fiber_async, spec_norm_slice_async, spec_pow_async, spec_sumnorm_async, spec_flash_softmax_gemm_async, spec_flash_softmax_gemm_backward_async, spec_softmax_async, spec_softmax_inplace_async, spec_scatter_async, spec_randn_async, spec_prod_async, spec_add_async, spec_nrm2_async, spec_normalize_async, spec_flash_maxsumexp_async, spec_maxsumexp_async, spec_add_slice_async, spec_add_slice3_async, spec_add_fiber_async, spec_prod_slice_async, spec_prod_fiber_async, spec_prod_fiber3_async, spec_add_scalar_async, spec_gather_async, spec_copy_intersection_async, spec_copy_async, spec_clear_async, spec_axpy_async, spec_sqrt_async, spec_sqrt_inplace_async, spec_maximum_async, spec_addcdiv_async, spec_sumprod_slice_async, spec_sumprod_fiber_async, spec_logsumexp_async, spec_total_sum_accum_async, spec_subtract_indexed_outputs_async, spec_scal_async, spec_scal_inplace_async, spec_mask_scalar_async, spec_embedding_async, spec_embedding_backward_async, spec_hypot_async, spec_hypot_scalar_inverse_async, spec_fused_adam_step, spec_fused_adamw_step, spec_transpose_async]

end

/-- The arguments fit, for the element type `d`. -/
def Fit (d : DType) (roles : List Role) (args : List PyVal) : Prop := List.Forall₂ (fun (r : Role) (a : PyVal) => r.Fits d a.type) roles args

/-- The function does what is specified: it may be called with up to `optional` arguments less, which are 0 then. For arguments which fit an available element type it calls the C++ function for it with these
arguments, for all others it raises an exception. -/
structure Obeys (f : PyOp) (sp : OpSpec) : Prop where
  calls : ∀ (args : List PyVal) (k : Nat), k ≤ sp.optional → ∀ d ∈ sp.types, Fit d sp.roles (args ++ List.replicate k (pyInt 0)) →
    f.call args = .ok ⟨sp.core, d, sp.pass d (args ++ List.replicate k (pyInt 0))⟩
  rejects : ∀ args : List PyVal, (∀ k ≤ sp.optional, ∀ d ∈ sp.types, ¬ Fit d sp.roles (args ++ List.replicate k (pyInt 0))) → f.call args = .error (.throw "TypeError")

end NNTile
