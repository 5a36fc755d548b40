import Verif.Model.Core
/-!
# Python functions for tensors of all element types, `wrappers/python/nntile/tensor.py`, and the C++ functions they call, `wrappers/python/nntile/nntile_core.cc`

Of Python values only the type and an identity (the number, or which object) matter here. A call of a C++ function is represented by its name, the element type for which the template is instantiated,
and the arguments. pybind11 accepts an argument for a parameter if the types fit: `float` and `int` for floating point numbers, `int` for integers, lists of integers for vectors, and for a tensor exactly
that class (there are no implicit conversions between tensors, and no null references); otherwise, and for a wrong number of arguments, it raises `TypeError`. The definitions of the functions
were transcribed by a program, branch by branch.
-/
namespace NNTile

/-- Element types of tensors, `wrappers/python/nntile/nntile_core.cc:392-396`. -/
inductive DType where
  | fp64 | fp32 | fp16 | int64 | bool
deriving DecidableEq, Repr

/-- Types of Python values. -/
inductive PyType where
  | tensor (d : DType) | float | int | ints | trans | none
deriving DecidableEq, Repr

/-- A Python value. -/
structure PyVal where
  type : PyType
  val : Int
deriving DecidableEq, Repr

/-- The integer `n`. -/
def pyInt (n : Int) : PyVal := ⟨.int, n⟩

/-- `None`. -/
def pyNone : PyVal := ⟨.none, 0⟩

/-- Parameter types of C++ functions. -/
inductive Param where
  | real | int | ints | trans | tensor (d : DType)
deriving DecidableEq, Repr

/-- Which types of values are accepted for a parameter. -/
def Param.accepts : Param → PyType → Prop
  | .real, t => t = .float ∨ t = .int
  | .int, t => t = .int
  | .ints, t => t = .ints
  | .trans, t => t = .trans
  | .tensor d, t => t = .tensor d

instance (p : Param) (t : PyType) : Decidable (p.accepts t) := by
  cases p <;> unfold Param.accepts <;> infer_instance

/-- All arguments are accepted. -/
def acceptAll : List Param → List PyVal → Prop
  | [], [] => True
  | p :: ps, a :: as => p.accepts a.type ∧ acceptAll ps as
  | _, _ => False

instance acceptAll.decidable : (ps : List Param) → (as : List PyVal) → Decidable (acceptAll ps as)
  | [], [] => inferInstanceAs (Decidable True)
  | p :: ps, a :: as => @instDecidableAnd _ _ _ (acceptAll.decidable ps as)
  | [], _ :: _ => inferInstanceAs (Decidable False)
  | _ :: _, [] => inferInstanceAs (Decidable False)

/-- A C++ function as seen from Python: name, element type, parameters of all overloads. -/
structure Binding where
  name : String
  dtype : DType
  overloads : List (List Param)

/-- A call of a C++ function. -/
structure CoreCall where
  name : String
  dtype : DType
  args : List PyVal
deriving DecidableEq, Repr

/-- `raise TypeError`. -/
def typeError : M CoreCall := .error (.throw "TypeError")

/-- A call through pybind11. -/
def Binding.call (b : Binding) (args : List PyVal) : M CoreCall :=
  if b.overloads.any (fun ps => acceptAll ps args) then .ok ⟨b.name, b.dtype, args⟩ else typeError

/-- A Python function: its name, the number of parameters, default values of the last ones, and its body. -/
structure PyOp where
  name : String
  arity : Nat
  defaults : List PyVal
  body : List PyVal → M CoreCall

/-- A call of a Python function with positional arguments. -/
def PyOp.call (f : PyOp) (args : List PyVal) : M CoreCall :=
  if f.arity - f.defaults.length ≤ args.length ∧ args.length ≤ f.arity then f.body (args ++ f.defaults.drop (args.length - (f.arity - f.defaults.length))) else typeError

/-! ### C++ functions -/

/-- `wrappers/python/nntile/nntile_core.cc:651`, `include/nntile/tensor/adam_step.hh:25-27`. -/
def core_adam_step_async_fp32 : Binding := ⟨"adam_step_async", .fp32, [[.int, .real, .real, .real, .real, .real, .tensor .fp32, .tensor .fp32, .tensor .fp32, .tensor .fp32]]⟩

/-- `wrappers/python/nntile/nntile_core.cc:650`, `include/nntile/tensor/adam_step.hh:25-27`. -/
def core_adam_step_async_fp64 : Binding := ⟨"adam_step_async", .fp64, [[.int, .real, .real, .real, .real, .real, .tensor .fp64, .tensor .fp64, .tensor .fp64, .tensor .fp64]]⟩

/-- `wrappers/python/nntile/nntile_core.cc:656`, `include/nntile/tensor/adamw_step.hh:26-28`. -/
def core_adamw_step_async_fp32 : Binding := ⟨"adamw_step_async", .fp32, [[.int, .real, .real, .real, .real, .real, .tensor .fp32, .tensor .fp32, .tensor .fp32, .tensor .fp32]]⟩

/-- `wrappers/python/nntile/nntile_core.cc:655`, `include/nntile/tensor/adamw_step.hh:26-28`. -/
def core_adamw_step_async_fp64 : Binding := ⟨"adamw_step_async", .fp64, [[.int, .real, .real, .real, .real, .real, .tensor .fp64, .tensor .fp64, .tensor .fp64, .tensor .fp64]]⟩

/-- `wrappers/python/nntile/nntile_core.cc:529`, `include/nntile/tensor/add.hh:27`. -/
def core_add_async_fp32 : Binding := ⟨"add_async", .fp32, [[.real, .tensor .fp32, .real, .tensor .fp32]]⟩

/-- `wrappers/python/nntile/nntile_core.cc:528`, `include/nntile/tensor/add.hh:27`. -/
def core_add_async_fp64 : Binding := ⟨"add_async", .fp64, [[.real, .tensor .fp64, .real, .tensor .fp64]]⟩

/-- `wrappers/python/nntile/nntile_core.cc:539`, `include/nntile/tensor/add_fiber.hh:26-27`. -/
def core_add_fiber_async_fp32 : Binding := ⟨"add_fiber_async", .fp32, [[.real, .tensor .fp32, .real, .tensor .fp32, .int, .int]]⟩

/-- `wrappers/python/nntile/nntile_core.cc:538`, `include/nntile/tensor/add_fiber.hh:26-27`. -/
def core_add_fiber_async_fp64 : Binding := ⟨"add_fiber_async", .fp64, [[.real, .tensor .fp64, .real, .tensor .fp64, .int, .int]]⟩

/-- `wrappers/python/nntile/nntile_core.cc:534`, `include/nntile/tensor/add_scalar.hh:27`. -/
def core_add_scalar_async_fp32 : Binding := ⟨"add_scalar_async", .fp32, [[.real, .real, .tensor .fp32]]⟩

/-- `wrappers/python/nntile/nntile_core.cc:533`, `include/nntile/tensor/add_scalar.hh:27`. -/
def core_add_scalar_async_fp64 : Binding := ⟨"add_scalar_async", .fp64, [[.real, .real, .tensor .fp64]]⟩

/-- `wrappers/python/nntile/nntile_core.cc:524`, `include/nntile/tensor/add_slice3.hh:26-27`. -/
def core_add_slice3_async_fp32 : Binding := ⟨"add_slice3_async", .fp32, [[.real, .tensor .fp32, .real, .tensor .fp32, .tensor .fp32, .int]]⟩

/-- `wrappers/python/nntile/nntile_core.cc:523`, `include/nntile/tensor/add_slice3.hh:26-27`. -/
def core_add_slice3_async_fp64 : Binding := ⟨"add_slice3_async", .fp64, [[.real, .tensor .fp64, .real, .tensor .fp64, .tensor .fp64, .int]]⟩

/-- `wrappers/python/nntile/nntile_core.cc:519`, `include/nntile/tensor/add_slice.hh:26-27`. -/
def core_add_slice_async_fp32 : Binding := ⟨"add_slice_async", .fp32, [[.real, .tensor .fp32, .real, .tensor .fp32, .int]]⟩

/-- `wrappers/python/nntile/nntile_core.cc:518`, `include/nntile/tensor/add_slice.hh:26-27`. -/
def core_add_slice_async_fp64 : Binding := ⟨"add_slice_async", .fp64, [[.real, .tensor .fp64, .real, .tensor .fp64, .int]]⟩

/-- `wrappers/python/nntile/nntile_core.cc:624`, `include/nntile/tensor/addcdiv.hh:25-26`. -/
def core_addcdiv_async_fp32 : Binding := ⟨"addcdiv_async", .fp32, [[.real, .real, .tensor .fp32, .tensor .fp32, .tensor .fp32]]⟩

/-- `wrappers/python/nntile/nntile_core.cc:623`, `include/nntile/tensor/addcdiv.hh:25-26`. -/
def core_addcdiv_async_fp64 : Binding := ⟨"addcdiv_async", .fp64, [[.real, .real, .tensor .fp64, .tensor .fp64, .tensor .fp64]]⟩

/-- `wrappers/python/nntile/nntile_core.cc:592-593`, `include/nntile/tensor/axpy.hh:35`; `wrappers/python/nntile/nntile_core.cc:602-604`, `include/nntile/tensor/axpy.hh:27-28`. -/
def core_axpy_async_fp32 : Binding := ⟨"axpy_async", .fp32, [[.real, .tensor .fp32, .tensor .fp32], [.tensor .fp32, .tensor .fp32, .tensor .fp32]]⟩

/-- `wrappers/python/nntile/nntile_core.cc:590-591`, `include/nntile/tensor/axpy.hh:35`; `wrappers/python/nntile/nntile_core.cc:599-601`, `include/nntile/tensor/axpy.hh:27-28`. -/
def core_axpy_async_fp64 : Binding := ⟨"axpy_async", .fp64, [[.real, .tensor .fp64, .tensor .fp64], [.tensor .fp64, .tensor .fp64, .tensor .fp64]]⟩

/-- `wrappers/python/nntile/nntile_core.cc:584`, `include/nntile/tensor/clear.hh:25`. -/
def core_clear_async_fp32 : Binding := ⟨"clear_async", .fp32, [[.tensor .fp32]]⟩

/-- `wrappers/python/nntile/nntile_core.cc:583`, `include/nntile/tensor/clear.hh:25`. -/
def core_clear_async_fp64 : Binding := ⟨"clear_async", .fp64, [[.tensor .fp64]]⟩

/-- `wrappers/python/nntile/nntile_core.cc:576`, `include/nntile/tensor/copy.hh:26`. -/
def core_copy_async_fp32 : Binding := ⟨"copy_async", .fp32, [[.tensor .fp32, .tensor .fp32]]⟩

/-- `wrappers/python/nntile/nntile_core.cc:575`, `include/nntile/tensor/copy.hh:26`. -/
def core_copy_async_fp64 : Binding := ⟨"copy_async", .fp64, [[.tensor .fp64, .tensor .fp64]]⟩

/-- `wrappers/python/nntile/nntile_core.cc:577`, `include/nntile/tensor/copy.hh:26`. -/
def core_copy_async_int64 : Binding := ⟨"copy_async", .int64, [[.tensor .int64, .tensor .int64]]⟩

/-- `wrappers/python/nntile/nntile_core.cc:568`, `include/nntile/tensor/copy_intersection.hh:26-28`. -/
def core_copy_intersection_async_fp32 : Binding := ⟨"copy_intersection_async", .fp32, [[.tensor .fp32, .ints, .tensor .fp32, .ints]]⟩

/-- `wrappers/python/nntile/nntile_core.cc:567`, `include/nntile/tensor/copy_intersection.hh:26-28`. -/
def core_copy_intersection_async_fp64 : Binding := ⟨"copy_intersection_async", .fp64, [[.tensor .fp64, .ints, .tensor .fp64, .ints]]⟩

/-- `wrappers/python/nntile/nntile_core.cc:569`, `include/nntile/tensor/copy_intersection.hh:26-28`. -/
def core_copy_intersection_async_int64 : Binding := ⟨"copy_intersection_async", .int64, [[.tensor .int64, .ints, .tensor .int64, .ints]]⟩

/-- `wrappers/python/nntile/nntile_core.cc:699`, `include/nntile/tensor/dgelu.hh:25`. -/
def core_dgelu_async_fp32 : Binding := ⟨"dgelu_async", .fp32, [[.tensor .fp32]]⟩

/-- `wrappers/python/nntile/nntile_core.cc:698`, `include/nntile/tensor/dgelu.hh:25`. -/
def core_dgelu_async_fp64 : Binding := ⟨"dgelu_async", .fp64, [[.tensor .fp64]]⟩

/-- `wrappers/python/nntile/nntile_core.cc:703`, `include/nntile/tensor/dgelutanh.hh:25`. -/
def core_dgelutanh_async_fp32 : Binding := ⟨"dgelutanh_async", .fp32, [[.tensor .fp32]]⟩

/-- `wrappers/python/nntile/nntile_core.cc:702`, `include/nntile/tensor/dgelutanh.hh:25`. -/
def core_dgelutanh_async_fp64 : Binding := ⟨"dgelutanh_async", .fp64, [[.tensor .fp64]]⟩

/-- `wrappers/python/nntile/nntile_core.cc:429`, `include/nntile/tensor/drelu.hh:25`. -/
def core_drelu_async_fp32 : Binding := ⟨"drelu_async", .fp32, [[.tensor .fp32]]⟩

/-- `wrappers/python/nntile/nntile_core.cc:428`, `include/nntile/tensor/drelu.hh:25`. -/
def core_drelu_async_fp64 : Binding := ⟨"drelu_async", .fp64, [[.tensor .fp64]]⟩

/-- `wrappers/python/nntile/nntile_core.cc:709`, `include/nntile/tensor/embedding.hh:26-27`. -/
def core_embedding_async_fp32 : Binding := ⟨"embedding_async", .fp32, [[.tensor .int64, .tensor .fp32, .tensor .fp32, .int]]⟩

/-- `wrappers/python/nntile/nntile_core.cc:708`, `include/nntile/tensor/embedding.hh:26-27`. -/
def core_embedding_async_fp64 : Binding := ⟨"embedding_async", .fp64, [[.tensor .int64, .tensor .fp64, .tensor .fp64, .int]]⟩

/-- `wrappers/python/nntile/nntile_core.cc:715`, `include/nntile/tensor/embedding_backward.hh:26-28`. -/
def core_embedding_backward_async_fp32 : Binding := ⟨"embedding_backward_async", .fp32, [[.tensor .int64, .tensor .fp32, .tensor .fp32, .int, .int]]⟩

/-- `wrappers/python/nntile/nntile_core.cc:714`, `include/nntile/tensor/embedding_backward.hh:26-28`. -/
def core_embedding_backward_async_fp64 : Binding := ⟨"embedding_backward_async", .fp64, [[.tensor .int64, .tensor .fp64, .tensor .fp64, .int, .int]]⟩

/-- `wrappers/python/nntile/nntile_core.cc:434`, `include/nntile/tensor/fill.hh:25`. -/
def core_fill_async_fp32 : Binding := ⟨"fill_async", .fp32, [[.real, .tensor .fp32]]⟩

/-- `wrappers/python/nntile/nntile_core.cc:433`, `include/nntile/tensor/fill.hh:25`. -/
def core_fill_async_fp64 : Binding := ⟨"fill_async", .fp64, [[.real, .tensor .fp64]]⟩

/-- `wrappers/python/nntile/nntile_core.cc:509`, `include/nntile/tensor/flash_maxsumexp.hh:25-27`. -/
def core_flash_maxsumexp_async_fp32 : Binding := ⟨"flash_maxsumexp_async", .fp32, [[.tensor .fp32, .tensor .fp32, .tensor .bool, .tensor .fp32, .tensor .fp32, .int, .int]]⟩

/-- `wrappers/python/nntile/nntile_core.cc:508`, `include/nntile/tensor/flash_maxsumexp.hh:25-27`. -/
def core_flash_maxsumexp_async_fp64 : Binding := ⟨"flash_maxsumexp_async", .fp64, [[.tensor .fp64, .tensor .fp64, .tensor .bool, .tensor .fp64, .tensor .fp64, .int, .int]]⟩

/-- `wrappers/python/nntile/nntile_core.cc:464`, `include/nntile/tensor/flash_softmax_gemm.hh:25-28`. -/
def core_flash_softmax_gemm_async_fp32 : Binding := ⟨"flash_softmax_gemm_async", .fp32, [[.tensor .fp32, .tensor .fp32, .tensor .fp32, .tensor .bool, .tensor .fp32, .tensor .fp32, .tensor .fp32, .int, .int]]⟩

/-- `wrappers/python/nntile/nntile_core.cc:463`, `include/nntile/tensor/flash_softmax_gemm.hh:25-28`. -/
def core_flash_softmax_gemm_async_fp64 : Binding := ⟨"flash_softmax_gemm_async", .fp64, [[.tensor .fp64, .tensor .fp64, .tensor .fp64, .tensor .bool, .tensor .fp64, .tensor .fp64, .tensor .fp64, .int, .int]]⟩

/-- `wrappers/python/nntile/nntile_core.cc:469`, `include/nntile/tensor/flash_softmax_gemm_backward.hh:25-30`. -/
def core_flash_softmax_gemm_backward_async_fp32 : Binding := ⟨"flash_softmax_gemm_backward_async", .fp32, [[.tensor .fp32, .tensor .fp32, .tensor .fp32, .tensor .fp32, .tensor .fp32, .tensor .fp32, .tensor .bool, .tensor .fp32, .tensor .fp32, .tensor .fp32, .tensor .fp32, .tensor .fp32, .int, .int]]⟩

/-- `wrappers/python/nntile/nntile_core.cc:468`, `include/nntile/tensor/flash_softmax_gemm_backward.hh:25-30`. -/
def core_flash_softmax_gemm_backward_async_fp64 : Binding := ⟨"flash_softmax_gemm_backward_async", .fp64, [[.tensor .fp64, .tensor .fp64, .tensor .fp64, .tensor .fp64, .tensor .fp64, .tensor .fp64, .tensor .bool, .tensor .fp64, .tensor .fp64, .tensor .fp64, .tensor .fp64, .tensor .fp64, .int, .int]]⟩

/-- `wrappers/python/nntile/nntile_core.cc:561`, `include/nntile/tensor/gather.hh:26`. -/
def core_gather_async_bool : Binding := ⟨"gather_async", .bool, [[.tensor .bool, .tensor .bool]]⟩

/-- `wrappers/python/nntile/nntile_core.cc:559`, `include/nntile/tensor/gather.hh:26`. -/
def core_gather_async_fp32 : Binding := ⟨"gather_async", .fp32, [[.tensor .fp32, .tensor .fp32]]⟩

/-- `wrappers/python/nntile/nntile_core.cc:558`, `include/nntile/tensor/gather.hh:26`. -/
def core_gather_async_fp64 : Binding := ⟨"gather_async", .fp64, [[.tensor .fp64, .tensor .fp64]]⟩

/-- `wrappers/python/nntile/nntile_core.cc:560`, `include/nntile/tensor/gather.hh:26`. -/
def core_gather_async_int64 : Binding := ⟨"gather_async", .int64, [[.tensor .int64, .tensor .int64]]⟩

/-- `wrappers/python/nntile/nntile_core.cc:677`, `include/nntile/tensor/gelu.hh:25`. -/
def core_gelu_async_fp32 : Binding := ⟨"gelu_async", .fp32, [[.tensor .fp32]]⟩

/-- `wrappers/python/nntile/nntile_core.cc:676`, `include/nntile/tensor/gelu.hh:25`. -/
def core_gelu_async_fp64 : Binding := ⟨"gelu_async", .fp64, [[.tensor .fp64]]⟩

/-- `wrappers/python/nntile/nntile_core.cc:681`, `include/nntile/tensor/gelu_backward.hh:26-27`. -/
def core_gelu_backward_async_fp32 : Binding := ⟨"gelu_backward_async", .fp32, [[.tensor .fp32, .tensor .fp32, .tensor .fp32]]⟩

/-- `wrappers/python/nntile/nntile_core.cc:680`, `include/nntile/tensor/gelu_backward.hh:26-27`. -/
def core_gelu_backward_async_fp64 : Binding := ⟨"gelu_backward_async", .fp64, [[.tensor .fp64, .tensor .fp64, .tensor .fp64]]⟩

/-- `wrappers/python/nntile/nntile_core.cc:686`, `include/nntile/tensor/gelutanh.hh:25`. -/
def core_gelutanh_async_fp32 : Binding := ⟨"gelutanh_async", .fp32, [[.tensor .fp32, .tensor .fp32]]⟩

/-- `wrappers/python/nntile/nntile_core.cc:685`, `include/nntile/tensor/gelutanh.hh:25`. -/
def core_gelutanh_async_fp64 : Binding := ⟨"gelutanh_async", .fp64, [[.tensor .fp64, .tensor .fp64]]⟩

/-- `wrappers/python/nntile/nntile_core.cc:694`, `include/nntile/tensor/gelutanh_backward.hh:26-27`. -/
def core_gelutanh_backward_async_fp32 : Binding := ⟨"gelutanh_backward_async", .fp32, [[.tensor .fp32, .tensor .fp32, .tensor .fp32]]⟩

/-- `wrappers/python/nntile/nntile_core.cc:693`, `include/nntile/tensor/gelutanh_backward.hh:26-27`. -/
def core_gelutanh_backward_async_fp64 : Binding := ⟨"gelutanh_backward_async", .fp64, [[.tensor .fp64, .tensor .fp64, .tensor .fp64]]⟩

/-- `wrappers/python/nntile/nntile_core.cc:690`, `include/nntile/tensor/gelutanh_inplace.hh:25`. -/
def core_gelutanh_inplace_async_fp32 : Binding := ⟨"gelutanh_inplace_async", .fp32, [[.tensor .fp32]]⟩

/-- `wrappers/python/nntile/nntile_core.cc:689`, `include/nntile/tensor/gelutanh_inplace.hh:25`. -/
def core_gelutanh_inplace_async_fp64 : Binding := ⟨"gelutanh_inplace_async", .fp64, [[.tensor .fp64]]⟩

/-- `wrappers/python/nntile/nntile_core.cc:404`, `include/nntile/tensor/gemm.hh:30-32`. -/
def core_gemm_async_fp16 : Binding := ⟨"gemm_async", .fp16, [[.real, .trans, .tensor .fp16, .trans, .tensor .fp16, .real, .tensor .fp16, .int, .int, .int]]⟩

/-- `wrappers/python/nntile/nntile_core.cc:403`, `include/nntile/tensor/gemm.hh:30-32`. -/
def core_gemm_async_fp32 : Binding := ⟨"gemm_async", .fp32, [[.real, .trans, .tensor .fp32, .trans, .tensor .fp32, .real, .tensor .fp32, .int, .int, .int]]⟩

/-- `wrappers/python/nntile/nntile_core.cc:402`, `include/nntile/tensor/gemm.hh:30-32`. -/
def core_gemm_async_fp64 : Binding := ⟨"gemm_async", .fp64, [[.real, .trans, .tensor .fp64, .trans, .tensor .fp64, .real, .tensor .fp64, .int, .int, .int]]⟩

/-- `wrappers/python/nntile/nntile_core.cc:409`, `include/nntile/tensor/gemm_ex.hh:26-28`. -/
def core_gemm_ex_async_fp32 : Binding := ⟨"gemm_ex_async", .fp32, [[.real, .trans, .tensor .fp32, .trans, .tensor .fp32, .real, .tensor .fp32, .int, .int, .int]]⟩

/-- `wrappers/python/nntile/nntile_core.cc:729`, `include/nntile/tensor/hypot.hh:26`. -/
def core_hypot_async_fp32 : Binding := ⟨"hypot_async", .fp32, [[.real, .tensor .fp32, .real, .tensor .fp32]]⟩

/-- `wrappers/python/nntile/nntile_core.cc:728`, `include/nntile/tensor/hypot.hh:26`. -/
def core_hypot_async_fp64 : Binding := ⟨"hypot_async", .fp64, [[.real, .tensor .fp64, .real, .tensor .fp64]]⟩

/-- `wrappers/python/nntile/nntile_core.cc:734`, `include/nntile/tensor/hypot_scalar_inverse.hh:25`. -/
def core_hypot_scalar_inverse_async_fp32 : Binding := ⟨"hypot_scalar_inverse_async", .fp32, [[.real, .real, .tensor .fp32]]⟩

/-- `wrappers/python/nntile/nntile_core.cc:733`, `include/nntile/tensor/hypot_scalar_inverse.hh:25`. -/
def core_hypot_scalar_inverse_async_fp64 : Binding := ⟨"hypot_scalar_inverse_async", .fp64, [[.real, .real, .tensor .fp64]]⟩

/-- `wrappers/python/nntile/nntile_core.cc:629`, `include/nntile/tensor/logsumexp.hh:25`. -/
def core_logsumexp_async_fp32 : Binding := ⟨"logsumexp_async", .fp32, [[.tensor .fp32, .tensor .fp32]]⟩

/-- `wrappers/python/nntile/nntile_core.cc:628`, `include/nntile/tensor/logsumexp.hh:25`. -/
def core_logsumexp_async_fp64 : Binding := ⟨"logsumexp_async", .fp64, [[.tensor .fp64, .tensor .fp64]]⟩

/-- `wrappers/python/nntile/nntile_core.cc:724`, `include/nntile/tensor/mask_scalar.hh:27-28`. -/
def core_mask_scalar_async_fp32 : Binding := ⟨"mask_scalar_async", .fp32, [[.tensor .bool, .real, .tensor .fp32, .int]]⟩

/-- `wrappers/python/nntile/nntile_core.cc:723`, `include/nntile/tensor/mask_scalar.hh:27-28`. -/
def core_mask_scalar_async_fp64 : Binding := ⟨"mask_scalar_async", .fp64, [[.tensor .bool, .real, .tensor .fp64, .int]]⟩

/-- `wrappers/python/nntile/nntile_core.cc:619`, `include/nntile/tensor/maximum.hh:26`. -/
def core_maximum_async_fp32 : Binding := ⟨"maximum_async", .fp32, [[.tensor .fp32, .tensor .fp32]]⟩

/-- `wrappers/python/nntile/nntile_core.cc:618`, `include/nntile/tensor/maximum.hh:26`. -/
def core_maximum_async_fp64 : Binding := ⟨"maximum_async", .fp64, [[.tensor .fp64, .tensor .fp64]]⟩

/-- `wrappers/python/nntile/nntile_core.cc:514`, `include/nntile/tensor/maxsumexp.hh:25-26`. -/
def core_maxsumexp_async_fp32 : Binding := ⟨"maxsumexp_async", .fp32, [[.tensor .fp32, .tensor .fp32, .int, .int]]⟩

/-- `wrappers/python/nntile/nntile_core.cc:513`, `include/nntile/tensor/maxsumexp.hh:25-26`. -/
def core_maxsumexp_async_fp64 : Binding := ⟨"maxsumexp_async", .fp64, [[.tensor .fp64, .tensor .fp64, .int, .int]]⟩

/-- `wrappers/python/nntile/nntile_core.cc:449`, `include/nntile/tensor/norm_slice.hh:25-26`. -/
def core_norm_slice_async_fp32 : Binding := ⟨"norm_slice_async", .fp32, [[.real, .tensor .fp32, .real, .tensor .fp32, .int, .int]]⟩

/-- `wrappers/python/nntile/nntile_core.cc:448`, `include/nntile/tensor/norm_slice.hh:25-26`. -/
def core_norm_slice_async_fp64 : Binding := ⟨"norm_slice_async", .fp64, [[.real, .tensor .fp64, .real, .tensor .fp64, .int, .int]]⟩

/-- `wrappers/python/nntile/nntile_core.cc:504`, `include/nntile/tensor/normalize.hh:25-26`. -/
def core_normalize_async_fp32 : Binding := ⟨"normalize_async", .fp32, [[.tensor .fp32, .tensor .fp32, .tensor .fp32, .int, .real, .int]]⟩

/-- `wrappers/python/nntile/nntile_core.cc:503`, `include/nntile/tensor/normalize.hh:25-26`. -/
def core_normalize_async_fp64 : Binding := ⟨"normalize_async", .fp64, [[.tensor .fp64, .tensor .fp64, .tensor .fp64, .int, .real, .int]]⟩

/-- `wrappers/python/nntile/nntile_core.cc:500`, `include/nntile/tensor/nrm2.hh:26-27`. -/
def core_nrm2_async_fp32 : Binding := ⟨"nrm2_async", .fp32, [[.real, .tensor .fp32, .real, .tensor .fp32, .tensor .fp32]]⟩

/-- `wrappers/python/nntile/nntile_core.cc:499`, `include/nntile/tensor/nrm2.hh:26-27`. -/
def core_nrm2_async_fp64 : Binding := ⟨"nrm2_async", .fp64, [[.real, .tensor .fp64, .real, .tensor .fp64, .tensor .fp64]]⟩

/-- `wrappers/python/nntile/nntile_core.cc:454`, `include/nntile/tensor/pow.hh:25`. -/
def core_pow_async_fp32 : Binding := ⟨"pow_async", .fp32, [[.real, .real, .tensor .fp32]]⟩

/-- `wrappers/python/nntile/nntile_core.cc:453`, `include/nntile/tensor/pow.hh:25`. -/
def core_pow_async_fp64 : Binding := ⟨"pow_async", .fp64, [[.real, .real, .tensor .fp64]]⟩

/-- `wrappers/python/nntile/nntile_core.cc:496`, `include/nntile/tensor/prod.hh:26`. -/
def core_prod_async_fp32 : Binding := ⟨"prod_async", .fp32, [[.tensor .fp32, .tensor .fp32]]⟩

/-- `wrappers/python/nntile/nntile_core.cc:495`, `include/nntile/tensor/prod.hh:26`. -/
def core_prod_async_fp64 : Binding := ⟨"prod_async", .fp64, [[.tensor .fp64, .tensor .fp64]]⟩

/-- `wrappers/python/nntile/nntile_core.cc:554`, `include/nntile/tensor/prod_fiber3.hh:26-27`. -/
def core_prod_fiber3_async_fp32 : Binding := ⟨"prod_fiber3_async", .fp32, [[.tensor .fp32, .real, .tensor .fp32, .tensor .fp32, .int]]⟩

/-- `wrappers/python/nntile/nntile_core.cc:553`, `include/nntile/tensor/prod_fiber3.hh:26-27`. -/
def core_prod_fiber3_async_fp64 : Binding := ⟨"prod_fiber3_async", .fp64, [[.tensor .fp64, .real, .tensor .fp64, .tensor .fp64, .int]]⟩

/-- `wrappers/python/nntile/nntile_core.cc:549`, `include/nntile/tensor/prod_fiber.hh:26-27`. -/
def core_prod_fiber_async_fp32 : Binding := ⟨"prod_fiber_async", .fp32, [[.tensor .fp32, .real, .tensor .fp32, .int]]⟩

/-- `wrappers/python/nntile/nntile_core.cc:548`, `include/nntile/tensor/prod_fiber.hh:26-27`. -/
def core_prod_fiber_async_fp64 : Binding := ⟨"prod_fiber_async", .fp64, [[.tensor .fp64, .real, .tensor .fp64, .int]]⟩

/-- `wrappers/python/nntile/nntile_core.cc:544`, `include/nntile/tensor/prod_slice.hh:26-27`. -/
def core_prod_slice_async_fp32 : Binding := ⟨"prod_slice_async", .fp32, [[.tensor .fp32, .real, .tensor .fp32, .int]]⟩

/-- `wrappers/python/nntile/nntile_core.cc:543`, `include/nntile/tensor/prod_slice.hh:26-27`. -/
def core_prod_slice_async_fp64 : Binding := ⟨"prod_slice_async", .fp64, [[.tensor .fp64, .real, .tensor .fp64, .int]]⟩

/-- `wrappers/python/nntile/nntile_core.cc:492`, `include/nntile/tensor/randn.hh:26-28`. -/
def core_randn_async_fp32 : Binding := ⟨"randn_async", .fp32, [[.tensor .fp32, .ints, .ints, .int, .real, .real]]⟩

/-- `wrappers/python/nntile/nntile_core.cc:491`, `include/nntile/tensor/randn.hh:26-28`. -/
def core_randn_async_fp64 : Binding := ⟨"randn_async", .fp64, [[.tensor .fp64, .ints, .ints, .int, .real, .real]]⟩

/-- `wrappers/python/nntile/nntile_core.cc:414`, `include/nntile/tensor/relu.hh:25`. -/
def core_relu_async_fp32 : Binding := ⟨"relu_async", .fp32, [[.tensor .fp32]]⟩

/-- `wrappers/python/nntile/nntile_core.cc:413`, `include/nntile/tensor/relu.hh:25`. -/
def core_relu_async_fp64 : Binding := ⟨"relu_async", .fp64, [[.tensor .fp64]]⟩

/-- `wrappers/python/nntile/nntile_core.cc:424`, `include/nntile/tensor/relu_backward.hh:25-26`. -/
def core_relu_backward_async_fp32 : Binding := ⟨"relu_backward_async", .fp32, [[.tensor .fp32, .tensor .fp32, .tensor .fp32]]⟩

/-- `wrappers/python/nntile/nntile_core.cc:423`, `include/nntile/tensor/relu_backward.hh:25-26`. -/
def core_relu_backward_async_fp64 : Binding := ⟨"relu_backward_async", .fp64, [[.tensor .fp64, .tensor .fp64, .tensor .fp64]]⟩

/-- `wrappers/python/nntile/nntile_core.cc:419`, `include/nntile/tensor/relu_forward.hh:25`. -/
def core_relu_forward_async_fp32 : Binding := ⟨"relu_forward_async", .fp32, [[.tensor .fp32, .tensor .fp32]]⟩

/-- `wrappers/python/nntile/nntile_core.cc:418`, `include/nntile/tensor/relu_forward.hh:25`. -/
def core_relu_forward_async_fp64 : Binding := ⟨"relu_forward_async", .fp64, [[.tensor .fp64, .tensor .fp64]]⟩

/-- `wrappers/python/nntile/nntile_core.cc:646`, `include/nntile/tensor/scal.hh:26`. -/
def core_scal_async_fp32 : Binding := ⟨"scal_async", .fp32, [[.real, .tensor .fp32, .tensor .fp32]]⟩

/-- `wrappers/python/nntile/nntile_core.cc:645`, `include/nntile/tensor/scal.hh:26`. -/
def core_scal_async_fp64 : Binding := ⟨"scal_async", .fp64, [[.real, .tensor .fp64, .tensor .fp64]]⟩

/-- `wrappers/python/nntile/nntile_core.cc:661`, `include/nntile/tensor/scal_inplace.hh:26`. -/
def core_scal_inplace_async_fp32 : Binding := ⟨"scal_inplace_async", .fp32, [[.real, .tensor .fp32]]⟩

/-- `wrappers/python/nntile/nntile_core.cc:660`, `include/nntile/tensor/scal_inplace.hh:26`. -/
def core_scal_inplace_async_fp64 : Binding := ⟨"scal_inplace_async", .fp64, [[.real, .tensor .fp64]]⟩

/-- `wrappers/python/nntile/nntile_core.cc:486`, `include/nntile/tensor/scatter.hh:26`. -/
def core_scatter_async_bool : Binding := ⟨"scatter_async", .bool, [[.tensor .bool, .tensor .bool]]⟩

/-- `wrappers/python/nntile/nntile_core.cc:484`, `include/nntile/tensor/scatter.hh:26`. -/
def core_scatter_async_fp32 : Binding := ⟨"scatter_async", .fp32, [[.tensor .fp32, .tensor .fp32]]⟩

/-- `wrappers/python/nntile/nntile_core.cc:483`, `include/nntile/tensor/scatter.hh:26`. -/
def core_scatter_async_fp64 : Binding := ⟨"scatter_async", .fp64, [[.tensor .fp64, .tensor .fp64]]⟩

/-- `wrappers/python/nntile/nntile_core.cc:485`, `include/nntile/tensor/scatter.hh:26`. -/
def core_scatter_async_int64 : Binding := ⟨"scatter_async", .int64, [[.tensor .int64, .tensor .int64]]⟩

/-- `wrappers/python/nntile/nntile_core.cc:474`, `include/nntile/tensor/softmax.hh:25-26`. -/
def core_softmax_async_fp32 : Binding := ⟨"softmax_async", .fp32, [[.tensor .fp32, .tensor .fp32, .real, .tensor .fp32, .int]]⟩

/-- `wrappers/python/nntile/nntile_core.cc:473`, `include/nntile/tensor/softmax.hh:25-26`. -/
def core_softmax_async_fp64 : Binding := ⟨"softmax_async", .fp64, [[.tensor .fp64, .tensor .fp64, .real, .tensor .fp64, .int]]⟩

/-- `wrappers/python/nntile/nntile_core.cc:479`, `include/nntile/tensor/softmax_inplace.hh:25-26`. -/
def core_softmax_inplace_async_fp32 : Binding := ⟨"softmax_inplace_async", .fp32, [[.tensor .fp32, .real, .tensor .fp32, .int]]⟩

/-- `wrappers/python/nntile/nntile_core.cc:478`, `include/nntile/tensor/softmax_inplace.hh:25-26`. -/
def core_softmax_inplace_async_fp64 : Binding := ⟨"softmax_inplace_async", .fp64, [[.tensor .fp64, .real, .tensor .fp64, .int]]⟩

/-- `wrappers/python/nntile/nntile_core.cc:611`, `include/nntile/tensor/sqrt.hh:26`. -/
def core_sqrt_async_fp32 : Binding := ⟨"sqrt_async", .fp32, [[.tensor .fp32, .tensor .fp32]]⟩

/-- `wrappers/python/nntile/nntile_core.cc:610`, `include/nntile/tensor/sqrt.hh:26`. -/
def core_sqrt_async_fp64 : Binding := ⟨"sqrt_async", .fp64, [[.tensor .fp64, .tensor .fp64]]⟩

/-- `wrappers/python/nntile/nntile_core.cc:615`, `include/nntile/tensor/sqrt_inplace.hh:26`. -/
def core_sqrt_inplace_async_fp32 : Binding := ⟨"sqrt_inplace_async", .fp32, [[.tensor .fp32]]⟩

/-- `wrappers/python/nntile/nntile_core.cc:614`, `include/nntile/tensor/sqrt_inplace.hh:26`. -/
def core_sqrt_inplace_async_fp64 : Binding := ⟨"sqrt_inplace_async", .fp64, [[.tensor .fp64]]⟩

/-- `wrappers/python/nntile/nntile_core.cc:640-641`, `include/nntile/tensor/subtract_indexed_outputs.hh:26-27`. -/
def core_subtract_indexed_outputs_async_fp32 : Binding := ⟨"subtract_indexed_outputs_async", .fp32, [[.real, .tensor .int64, .tensor .fp32]]⟩

/-- `wrappers/python/nntile/nntile_core.cc:638-639`, `include/nntile/tensor/subtract_indexed_outputs.hh:26-27`. -/
def core_subtract_indexed_outputs_async_fp64 : Binding := ⟨"subtract_indexed_outputs_async", .fp64, [[.real, .tensor .int64, .tensor .fp64]]⟩

/-- `wrappers/python/nntile/nntile_core.cc:444`, `include/nntile/tensor/sum_fiber.hh:26-27`. -/
def core_sum_fiber_async_fp32 : Binding := ⟨"sum_fiber_async", .fp32, [[.real, .tensor .fp32, .real, .tensor .fp32, .int, .int, .int]]⟩

/-- `wrappers/python/nntile/nntile_core.cc:443`, `include/nntile/tensor/sum_fiber.hh:26-27`. -/
def core_sum_fiber_async_fp64 : Binding := ⟨"sum_fiber_async", .fp64, [[.real, .tensor .fp64, .real, .tensor .fp64, .int, .int, .int]]⟩

/-- `wrappers/python/nntile/nntile_core.cc:439`, `include/nntile/tensor/sum_slice.hh:26-27`. -/
def core_sum_slice_async_fp32 : Binding := ⟨"sum_slice_async", .fp32, [[.real, .tensor .fp32, .real, .tensor .fp32, .int, .int]]⟩

/-- `wrappers/python/nntile/nntile_core.cc:438`, `include/nntile/tensor/sum_slice.hh:26-27`. -/
def core_sum_slice_async_fp64 : Binding := ⟨"sum_slice_async", .fp64, [[.real, .tensor .fp64, .real, .tensor .fp64, .int, .int]]⟩

/-- `wrappers/python/nntile/nntile_core.cc:459`, `include/nntile/tensor/sumnorm.hh:25`. -/
def core_sumnorm_async_fp32 : Binding := ⟨"sumnorm_async", .fp32, [[.tensor .fp32, .tensor .fp32, .int]]⟩

/-- `wrappers/python/nntile/nntile_core.cc:458`, `include/nntile/tensor/sumnorm.hh:25`. -/
def core_sumnorm_async_fp64 : Binding := ⟨"sumnorm_async", .fp64, [[.tensor .fp64, .tensor .fp64, .int]]⟩

/-- `wrappers/python/nntile/nntile_core.cc:671`, `include/nntile/tensor/sumprod_fiber.hh:25-27`. -/
def core_sumprod_fiber_async_fp32 : Binding := ⟨"sumprod_fiber_async", .fp32, [[.real, .tensor .fp32, .tensor .fp32, .real, .tensor .fp32, .int, .int]]⟩

/-- `wrappers/python/nntile/nntile_core.cc:670`, `include/nntile/tensor/sumprod_fiber.hh:25-27`. -/
def core_sumprod_fiber_async_fp64 : Binding := ⟨"sumprod_fiber_async", .fp64, [[.real, .tensor .fp64, .tensor .fp64, .real, .tensor .fp64, .int, .int]]⟩

/-- `wrappers/python/nntile/nntile_core.cc:666`, `include/nntile/tensor/sumprod_slice.hh:25-26`. -/
def core_sumprod_slice_async_fp32 : Binding := ⟨"sumprod_slice_async", .fp32, [[.real, .tensor .fp32, .tensor .fp32, .real, .tensor .fp32, .int, .int]]⟩

/-- `wrappers/python/nntile/nntile_core.cc:665`, `include/nntile/tensor/sumprod_slice.hh:25-26`. -/
def core_sumprod_slice_async_fp64 : Binding := ⟨"sumprod_slice_async", .fp64, [[.real, .tensor .fp64, .tensor .fp64, .real, .tensor .fp64, .int, .int]]⟩

/-- `wrappers/python/nntile/nntile_core.cc:634`, `include/nntile/tensor/total_sum_accum.hh:26-28`. -/
def core_total_sum_accum_async_fp32 : Binding := ⟨"total_sum_accum_async", .fp32, [[.real, .tensor .fp32, .tensor .fp32, .tensor .int64, .tensor .fp32]]⟩

/-- `wrappers/python/nntile/nntile_core.cc:633`, `include/nntile/tensor/total_sum_accum.hh:26-28`. -/
def core_total_sum_accum_async_fp64 : Binding := ⟨"total_sum_accum_async", .fp64, [[.real, .tensor .fp64, .tensor .fp64, .tensor .int64, .tensor .fp64]]⟩

/-- `wrappers/python/nntile/nntile_core.cc:739`, `include/nntile/tensor/transpose.hh:26-27`. -/
def core_transpose_async_fp32 : Binding := ⟨"transpose_async", .fp32, [[.real, .tensor .fp32, .tensor .fp32, .int]]⟩

/-- `wrappers/python/nntile/nntile_core.cc:738`, `include/nntile/tensor/transpose.hh:26-27`. -/
def core_transpose_async_fp64 : Binding := ⟨"transpose_async", .fp64, [[.real, .tensor .fp64, .tensor .fp64, .int]]⟩

/-! ### Python functions -/

/-- `gemm_async`, `wrappers/python/nntile/tensor.py:52-67`. -/
def py_gemm_async (alpha trans_A A trans_B B beta C ndim batch_ndim redux : PyVal) : M CoreCall :=
  if A.type ≠ B.type ∨ A.type ≠ C.type then typeError
  else if A.type = .tensor .fp32 then core_gemm_async_fp32.call [alpha, trans_A, A, trans_B, B, beta, C, ndim, batch_ndim, redux]
  else if A.type = .tensor .fp64 then core_gemm_async_fp64.call [alpha, trans_A, A, trans_B, B, beta, C, ndim, batch_ndim, redux]
  else if A.type = .tensor .fp16 then core_gemm_async_fp16.call [alpha, trans_A, A, trans_B, B, beta, C, ndim, batch_ndim, redux]
  else typeError

/-- `gemm_ex_async`, `wrappers/python/nntile/tensor.py:70-79`. -/
def py_gemm_ex_async (alpha trans_A A trans_B B beta C ndim batch_ndim redux : PyVal) : M CoreCall :=
  if A.type ≠ B.type ∨ A.type ≠ C.type then typeError
  else if A.type = .tensor .fp32 then core_gemm_ex_async_fp32.call [alpha, trans_A, A, trans_B, B, beta, C, ndim, batch_ndim, redux]
  else typeError

/-- `relu_async`, `wrappers/python/nntile/tensor.py:82-88`. -/
def py_relu_async (x : PyVal) : M CoreCall :=
  if x.type = .tensor .fp32 then core_relu_async_fp32.call [x]
  else if x.type = .tensor .fp64 then core_relu_async_fp64.call [x]
  else typeError

/-- `relu_forward_async`, `wrappers/python/nntile/tensor.py:91-97`. -/
def py_relu_forward_async (x y : PyVal) : M CoreCall :=
  if x.type = .tensor .fp32 then core_relu_forward_async_fp32.call [x, y]
  else if x.type = .tensor .fp64 then core_relu_forward_async_fp64.call [x, y]
  else typeError

/-- `relu_backward_async`, `wrappers/python/nntile/tensor.py:100-106`. -/
def py_relu_backward_async (x dy dx : PyVal) : M CoreCall :=
  if x.type = .tensor .fp32 then core_relu_backward_async_fp32.call [x, dy, dx]
  else if x.type = .tensor .fp64 then core_relu_backward_async_fp64.call [x, dy, dx]
  else typeError

/-- `drelu_async`, `wrappers/python/nntile/tensor.py:109-115`. -/
def py_drelu_async (x : PyVal) : M CoreCall :=
  if x.type = .tensor .fp32 then core_drelu_async_fp32.call [x]
  else if x.type = .tensor .fp64 then core_drelu_async_fp64.call [x]
  else typeError

/-- `gelu_async`, `wrappers/python/nntile/tensor.py:118-124`. -/
def py_gelu_async (x : PyVal) : M CoreCall :=
  if x.type = .tensor .fp32 then core_gelu_async_fp32.call [x]
  else if x.type = .tensor .fp64 then core_gelu_async_fp64.call [x]
  else typeError

/-- `dgelu_async`, `wrappers/python/nntile/tensor.py:127-133`. -/
def py_dgelu_async (x : PyVal) : M CoreCall :=
  if x.type = .tensor .fp32 then core_dgelu_async_fp32.call [x]
  else if x.type = .tensor .fp64 then core_dgelu_async_fp64.call [x]
  else typeError

/-- `gelu_backward_async`, `wrappers/python/nntile/tensor.py:136-142`. -/
def py_gelu_backward_async (x dy dx : PyVal) : M CoreCall :=
  if x.type = .tensor .fp32 then core_gelu_backward_async_fp32.call [x, dy, dx]
  else if x.type = .tensor .fp64 then core_gelu_backward_async_fp64.call [x, dy, dx]
  else typeError

/-- `gelutanh_async`, `wrappers/python/nntile/tensor.py:145-153`. -/
def py_gelutanh_async (x y : PyVal) : M CoreCall :=
  if x.type ≠ y.type then typeError
  else if x.type = .tensor .fp32 then core_gelutanh_async_fp32.call [x, y]
  else if x.type = .tensor .fp64 then core_gelutanh_async_fp64.call [x, y]
  else typeError

/-- `gelutanh_inplace_async`, `wrappers/python/nntile/tensor.py:156-162`. -/
def py_gelutanh_inplace_async (x : PyVal) : M CoreCall :=
  if x.type = .tensor .fp32 then core_gelutanh_inplace_async_fp32.call [x]
  else if x.type = .tensor .fp64 then core_gelutanh_inplace_async_fp64.call [x]
  else typeError

/-- `dgelutanh_async`, `wrappers/python/nntile/tensor.py:165-171`. -/
def py_dgelutanh_async (x : PyVal) : M CoreCall :=
  if x.type = .tensor .fp32 then core_dgelutanh_async_fp32.call [x]
  else if x.type = .tensor .fp64 then core_dgelutanh_async_fp64.call [x]
  else typeError

/-- `gelutanh_backward_async`, `wrappers/python/nntile/tensor.py:174-180`. -/
def py_gelutanh_backward_async (x dy dx : PyVal) : M CoreCall :=
  if x.type = .tensor .fp32 then core_gelutanh_backward_async_fp32.call [x, dy, dx]
  else if x.type = .tensor .fp64 then core_gelutanh_backward_async_fp64.call [x, dy, dx]
  else typeError

/-- `fill_async`, `wrappers/python/nntile/tensor.py:183-189`. -/
def py_fill_async (val_ x : PyVal) : M CoreCall :=
  if x.type = .tensor .fp32 then core_fill_async_fp32.call [val_, x]
  else if x.type = .tensor .fp64 then core_fill_async_fp64.call [val_, x]
  else typeError

/-- `sum_slice_async`, `wrappers/python/nntile/tensor.py:192-203`. -/
def py_sum_slice_async (alpha x beta sum_slice axis redux : PyVal) : M CoreCall :=
  if x.type ≠ sum_slice.type then typeError
  else if x.type = .tensor .fp32 then core_sum_slice_async_fp32.call [alpha, x, beta, sum_slice, axis, redux]
  else if x.type = .tensor .fp64 then core_sum_slice_async_fp64.call [alpha, x, beta, sum_slice, axis, redux]
  else typeError

/-- `sum_fiber_async`, `wrappers/python/nntile/tensor.py:206-217`. -/
def py_sum_fiber_async (alpha x beta sum_fiber axis batch_ndim redux : PyVal) : M CoreCall :=
  if x.type ≠ sum_fiber.type then typeError
  else if x.type = .tensor .fp32 then core_sum_fiber_async_fp32.call [alpha, x, beta, sum_fiber, axis, batch_ndim, redux]
  else if x.type = .tensor .fp64 then core_sum_fiber_async_fp64.call [alpha, x, beta, sum_fiber, axis, batch_ndim, redux]
  else typeError

/-- `norm_slice_async`, `wrappers/python/nntile/tensor.py:220-229`. -/
def py_norm_slice_async (alpha x beta norm_slice axis redux : PyVal) : M CoreCall :=
  if x.type ≠ norm_slice.type then typeError
  else if x.type = .tensor .fp32 then core_norm_slice_async_fp32.call [alpha, x, beta, norm_slice, axis, redux]
  else core_norm_slice_async_fp64.call [alpha, x, beta, norm_slice, axis, redux]

/-- `pow_async`, `wrappers/python/nntile/tensor.py:232-236`. -/
def py_pow_async (alpha expo x : PyVal) : M CoreCall :=
  if x.type = .tensor .fp32 then core_pow_async_fp32.call [alpha, expo, x]
  else core_pow_async_fp64.call [alpha, expo, x]

/-- `sumnorm_async`, `wrappers/python/nntile/tensor.py:239-247`. -/
def py_sumnorm_async (x sumnorm axis : PyVal) : M CoreCall :=
  if x.type ≠ sumnorm.type then typeError
  else if x.type = .tensor .fp32 then core_sumnorm_async_fp32.call [x, sumnorm, axis]
  else if x.type = .tensor .fp64 then core_sumnorm_async_fp64.call [x, sumnorm, axis]
  else typeError

/-- `flash_softmax_gemm_async`, `wrappers/python/nntile/tensor.py:250-270`. -/
def py_flash_softmax_gemm_async (Q K V mask maxsumexp dst tmp redux fp32_fast_tf32 : PyVal) : M CoreCall :=
  if Q.type ≠ K.type then typeError
  else if Q.type ≠ V.type then typeError
  else if Q.type ≠ maxsumexp.type then typeError
  else if Q.type ≠ dst.type then typeError
  else if Q.type ≠ tmp.type then typeError
  else if Q.type = .tensor .fp32 then core_flash_softmax_gemm_async_fp32.call [Q, K, V, mask, maxsumexp, dst, tmp, redux, fp32_fast_tf32]
  else if Q.type = .tensor .fp64 then core_flash_softmax_gemm_async_fp64.call [Q, K, V, mask, maxsumexp, dst, tmp, redux, pyInt 0]
  else typeError

/-- `flash_softmax_gemm_backward_async`, `wrappers/python/nntile/tensor.py:273-306`. -/
def py_flash_softmax_gemm_backward_async (Q dQ K dK V dV mask maxsumexp dst_grad tmp tmp_grad tmp_sumprod_slice redux fp32_fast_tf32 : PyVal) : M CoreCall :=
  if Q.type ≠ dQ.type then typeError
  else if Q.type ≠ K.type then typeError
  else if Q.type ≠ dK.type then typeError
  else if Q.type ≠ V.type then typeError
  else if Q.type ≠ dV.type then typeError
  else if Q.type ≠ maxsumexp.type then typeError
  else if Q.type ≠ dst_grad.type then typeError
  else if Q.type ≠ tmp.type then typeError
  else if Q.type ≠ tmp_grad.type then typeError
  else if Q.type ≠ tmp_sumprod_slice.type then typeError
  else if Q.type = .tensor .fp32 then core_flash_softmax_gemm_backward_async_fp32.call [Q, dQ, K, dK, V, dV, mask, maxsumexp, dst_grad, tmp, tmp_grad, tmp_sumprod_slice, redux, fp32_fast_tf32]
  else if Q.type = .tensor .fp64 then core_flash_softmax_gemm_backward_async_fp64.call [Q, dQ, K, dK, V, dV, mask, maxsumexp, dst_grad, tmp, tmp_grad, tmp_sumprod_slice, redux, pyInt 0]
  else typeError

/-- `softmax_async`, `wrappers/python/nntile/tensor.py:309-320`. -/
def py_softmax_async (maxsumexp x alpha y axis : PyVal) : M CoreCall :=
  if x.type ≠ y.type then typeError
  else if maxsumexp.type ≠ x.type then typeError
  else if x.type = .tensor .fp32 then core_softmax_async_fp32.call [maxsumexp, x, alpha, y, axis]
  else if x.type = .tensor .fp64 then core_softmax_async_fp64.call [maxsumexp, x, alpha, y, axis]
  else typeError

/-- `softmax_inplace_async`, `wrappers/python/nntile/tensor.py:323-332`. -/
def py_softmax_inplace_async (maxsumexp alpha x axis : PyVal) : M CoreCall :=
  if maxsumexp.type ≠ x.type then typeError
  else if x.type = .tensor .fp32 then core_softmax_inplace_async_fp32.call [maxsumexp, alpha, x, axis]
  else if x.type = .tensor .fp64 then core_softmax_inplace_async_fp64.call [maxsumexp, alpha, x, axis]
  else typeError

/-- `scatter_async`, `wrappers/python/nntile/tensor.py:335-347`. -/
def py_scatter_async (x y : PyVal) : M CoreCall :=
  if x.type ≠ y.type then typeError
  else if x.type = .tensor .fp32 then core_scatter_async_fp32.call [x, y]
  else if x.type = .tensor .fp32 then core_scatter_async_fp64.call [x, y]
  else if x.type = .tensor .int64 then core_scatter_async_int64.call [x, y]
  else if x.type = .tensor .bool then core_scatter_async_bool.call [x, y]
  else typeError

/-- `randn_async`, `wrappers/python/nntile/tensor.py:350-357`. -/
def py_randn_async (x start shape seed mean dev : PyVal) : M CoreCall :=
  if x.type = .tensor .fp32 then core_randn_async_fp32.call [x, start, shape, seed, mean, dev]
  else if x.type = .tensor .fp64 then core_randn_async_fp64.call [x, start, shape, seed, mean, dev]
  else typeError

/-- `prod_async`, `wrappers/python/nntile/tensor.py:360-368`. -/
def py_prod_async (x y : PyVal) : M CoreCall :=
  if x.type ≠ y.type then typeError
  else if x.type = .tensor .fp32 then core_prod_async_fp32.call [x, y]
  else if x.type = .tensor .fp64 then core_prod_async_fp64.call [x, y]
  else typeError

/-- `add_async`, `wrappers/python/nntile/tensor.py:371-379`. -/
def py_add_async (alpha x beta y : PyVal) : M CoreCall :=
  if x.type ≠ y.type then typeError
  else if x.type = .tensor .fp32 then core_add_async_fp32.call [alpha, x, beta, y]
  else if x.type = .tensor .fp64 then core_add_async_fp64.call [alpha, x, beta, y]
  else typeError

/-- `nrm2_async`, `wrappers/python/nntile/tensor.py:382-391`. -/
def py_nrm2_async (alpha x beta y tmp : PyVal) : M CoreCall :=
  if x.type ≠ y.type ∨ x.type ≠ tmp.type then typeError
  else if x.type = .tensor .fp32 then core_nrm2_async_fp32.call [alpha, x, beta, y, tmp]
  else if x.type = .tensor .fp64 then core_nrm2_async_fp64.call [alpha, x, beta, y, tmp]
  else typeError

/-- `normalize_async`, `wrappers/python/nntile/tensor.py:394-403`. -/
def py_normalize_async (gb x y l eps axis : PyVal) : M CoreCall :=
  if x.type ≠ y.type ∨ x.type ≠ gb.type then typeError
  else if x.type = .tensor .fp32 then core_normalize_async_fp32.call [gb, x, y, l, eps, axis]
  else if x.type = .tensor .fp64 then core_normalize_async_fp64.call [gb, x, y, l, eps, axis]
  else typeError

/-- `flash_maxsumexp_async`, `wrappers/python/nntile/tensor.py:406-422`. -/
def py_flash_maxsumexp_async (Q K mask maxsumexp tmp redux fp32_fast_tf32 : PyVal) : M CoreCall :=
  if Q.type ≠ K.type then typeError
  else if Q.type ≠ maxsumexp.type then typeError
  else if Q.type ≠ tmp.type then typeError
  else if Q.type = .tensor .fp32 then core_flash_maxsumexp_async_fp32.call [Q, K, mask, maxsumexp, tmp, redux, fp32_fast_tf32]
  else if Q.type = .tensor .fp64 then core_flash_maxsumexp_async_fp64.call [Q, K, mask, maxsumexp, tmp, redux, pyInt 0]
  else typeError

/-- `maxsumexp_async`, `wrappers/python/nntile/tensor.py:425-434`. -/
def py_maxsumexp_async (x maxsumexp axis redux : PyVal) : M CoreCall :=
  if x.type ≠ maxsumexp.type then typeError
  else if x.type = .tensor .fp32 then core_maxsumexp_async_fp32.call [x, maxsumexp, axis, redux]
  else if x.type = .tensor .fp64 then core_maxsumexp_async_fp64.call [x, maxsumexp, axis, redux]
  else typeError

/-- `add_slice_async`, `wrappers/python/nntile/tensor.py:437-446`. -/
def py_add_slice_async (alpha add_slice beta x axis : PyVal) : M CoreCall :=
  if add_slice.type ≠ x.type then typeError
  else if x.type = .tensor .fp32 then core_add_slice_async_fp32.call [alpha, add_slice, beta, x, axis]
  else if x.type = .tensor .fp64 then core_add_slice_async_fp64.call [alpha, add_slice, beta, x, axis]
  else typeError

/-- `add_slice3_async`, `wrappers/python/nntile/tensor.py:449-460`. -/
def py_add_slice3_async (alpha add_slice beta x y axis : PyVal) : M CoreCall :=
  if add_slice.type ≠ x.type then typeError
  else if x.type ≠ y.type then typeError
  else if x.type = .tensor .fp32 then core_add_slice3_async_fp32.call [alpha, add_slice, beta, x, y, axis]
  else if x.type = .tensor .fp64 then core_add_slice3_async_fp64.call [alpha, add_slice, beta, x, y, axis]
  else typeError

/-- `add_fiber_async`, `wrappers/python/nntile/tensor.py:463-474`. -/
def py_add_fiber_async (alpha add_fiber beta x axis batch_ndim : PyVal) : M CoreCall :=
  if add_fiber.type ≠ x.type then typeError
  else if x.type = .tensor .fp32 then core_add_fiber_async_fp32.call [alpha, add_fiber, beta, x, axis, batch_ndim]
  else if x.type = .tensor .fp64 then core_add_fiber_async_fp64.call [alpha, add_fiber, beta, x, axis, batch_ndim]
  else typeError

/-- `prod_slice_async`, `wrappers/python/nntile/tensor.py:477-486`. -/
def py_prod_slice_async (prod_slice alpha x axis : PyVal) : M CoreCall :=
  if prod_slice.type ≠ x.type then typeError
  else if x.type = .tensor .fp32 then core_prod_slice_async_fp32.call [prod_slice, alpha, x, axis]
  else if x.type = .tensor .fp64 then core_prod_slice_async_fp64.call [prod_slice, alpha, x, axis]
  else typeError

/-- `prod_fiber_async`, `wrappers/python/nntile/tensor.py:489-498`. -/
def py_prod_fiber_async (prod_fiber alpha x axis : PyVal) : M CoreCall :=
  if prod_fiber.type ≠ x.type then typeError
  else if x.type = .tensor .fp32 then core_prod_fiber_async_fp32.call [prod_fiber, alpha, x, axis]
  else if x.type = .tensor .fp64 then core_prod_fiber_async_fp64.call [prod_fiber, alpha, x, axis]
  else typeError

/-- `prod_fiber3_async`, `wrappers/python/nntile/tensor.py:501-512`. -/
def py_prod_fiber3_async (prod_fiber alpha x y axis : PyVal) : M CoreCall :=
  if prod_fiber.type ≠ x.type then typeError
  else if x.type ≠ y.type then typeError
  else if x.type = .tensor .fp32 then core_prod_fiber3_async_fp32.call [prod_fiber, alpha, x, y, axis]
  else if x.type = .tensor .fp64 then core_prod_fiber3_async_fp64.call [prod_fiber, alpha, x, y, axis]
  else typeError

/-- `add_scalar_async`, `wrappers/python/nntile/tensor.py:515-521`. -/
def py_add_scalar_async (alpha beta x : PyVal) : M CoreCall :=
  if x.type = .tensor .fp32 then core_add_scalar_async_fp32.call [alpha, beta, x]
  else if x.type = .tensor .fp64 then core_add_scalar_async_fp64.call [alpha, beta, x]
  else typeError

/-- `gather_async`, `wrappers/python/nntile/tensor.py:524-536`. -/
def py_gather_async (x y : PyVal) : M CoreCall :=
  if x.type ≠ y.type then typeError
  else if x.type = .tensor .fp32 then core_gather_async_fp32.call [x, y]
  else if x.type = .tensor .fp64 then core_gather_async_fp64.call [x, y]
  else if x.type = .tensor .int64 then core_gather_async_int64.call [x, y]
  else if x.type = .tensor .bool then core_gather_async_bool.call [x, y]
  else typeError

/-- `copy_intersection_async`, `wrappers/python/nntile/tensor.py:539-550`. -/
def py_copy_intersection_async (x x_offset y y_offset : PyVal) : M CoreCall :=
  if x.type ≠ y.type then typeError
  else if x.type = .tensor .fp32 then core_copy_intersection_async_fp32.call [x, x_offset, y, y_offset]
  else if x.type = .tensor .fp64 then core_copy_intersection_async_fp64.call [x, x_offset, y, y_offset]
  else if x.type = .tensor .int64 then core_copy_intersection_async_int64.call [x, x_offset, y, y_offset]
  else typeError

/-- `copy_async`, `wrappers/python/nntile/tensor.py:553-563`. -/
def py_copy_async (x y : PyVal) : M CoreCall :=
  if x.type ≠ y.type then typeError
  else if x.type = .tensor .fp32 then core_copy_async_fp32.call [x, y]
  else if x.type = .tensor .fp64 then core_copy_async_fp64.call [x, y]
  else if x.type = .tensor .int64 then core_copy_async_int64.call [x, y]
  else typeError

/-- `clear_async`, `wrappers/python/nntile/tensor.py:566-572`. -/
def py_clear_async (x : PyVal) : M CoreCall :=
  if x.type = .tensor .fp32 then core_clear_async_fp32.call [x]
  else if x.type = .tensor .fp64 then core_clear_async_fp64.call [x]
  else typeError

/-- `axpy_async`, `wrappers/python/nntile/tensor.py:575-593`. `type(alpha) is Tensor` is false for every value, since `Tensor` is a `Union`. -/
def py_axpy_async (alpha x y : PyVal) : M CoreCall :=
  if x.type ≠ y.type then typeError
  else if False then (if alpha.type ≠ x.type then typeError
  else if x.type = .tensor .fp32 then core_axpy_async_fp32.call [alpha, x, y]
  else if x.type = .tensor .fp64 then core_axpy_async_fp64.call [alpha, x, y]
  else typeError)
  else if x.type = .tensor .fp32 then core_axpy_async_fp32.call [alpha, x, y]
  else if x.type = .tensor .fp64 then core_axpy_async_fp64.call [alpha, x, y]
  else typeError

/-- `sqrt_async`, `wrappers/python/nntile/tensor.py:596-604`. -/
def py_sqrt_async (x y : PyVal) : M CoreCall :=
  if x.type ≠ y.type then typeError
  else if x.type = .tensor .fp32 then core_sqrt_async_fp32.call [x, y]
  else if x.type = .tensor .fp64 then core_sqrt_async_fp64.call [x, y]
  else typeError

/-- `sqrt_inplace_async`, `wrappers/python/nntile/tensor.py:607-613`. -/
def py_sqrt_inplace_async (x : PyVal) : M CoreCall :=
  if x.type = .tensor .fp32 then core_sqrt_inplace_async_fp32.call [x]
  else if x.type = .tensor .fp64 then core_sqrt_inplace_async_fp64.call [x]
  else typeError

/-- `maximum_async`, `wrappers/python/nntile/tensor.py:616-624`. -/
def py_maximum_async (x y : PyVal) : M CoreCall :=
  if x.type ≠ y.type then typeError
  else if x.type = .tensor .fp32 then core_maximum_async_fp32.call [x, y]
  else if x.type = .tensor .fp64 then core_maximum_async_fp64.call [x, y]
  else typeError

/-- `addcdiv_async`, `wrappers/python/nntile/tensor.py:627-638`. -/
def py_addcdiv_async (alpha eps nom denom src : PyVal) : M CoreCall :=
  if nom.type ≠ denom.type then typeError
  else if nom.type ≠ src.type then typeError
  else if nom.type = .tensor .fp32 then core_addcdiv_async_fp32.call [alpha, eps, nom, denom, src]
  else if nom.type = .tensor .fp64 then core_addcdiv_async_fp64.call [alpha, eps, nom, denom, src]
  else typeError

/-- `sumprod_slice_async`, `wrappers/python/nntile/tensor.py:641-654`. -/
def py_sumprod_slice_async (alpha src1 src2 beta dst axis redux : PyVal) : M CoreCall :=
  if src1.type ≠ src2.type then typeError
  else if src1.type ≠ dst.type then typeError
  else if src1.type = .tensor .fp32 then core_sumprod_slice_async_fp32.call [alpha, src1, src2, beta, dst, axis, redux]
  else if src1.type = .tensor .fp64 then core_sumprod_slice_async_fp64.call [alpha, src1, src2, beta, dst, axis, redux]
  else typeError

/-- `sumprod_fiber_async`, `wrappers/python/nntile/tensor.py:657-670`. -/
def py_sumprod_fiber_async (alpha src1 src2 beta dst axis redux : PyVal) : M CoreCall :=
  if src1.type ≠ src2.type then typeError
  else if src1.type ≠ dst.type then typeError
  else if src1.type = .tensor .fp32 then core_sumprod_fiber_async_fp32.call [alpha, src1, src2, beta, dst, axis, redux]
  else if src1.type = .tensor .fp64 then core_sumprod_fiber_async_fp64.call [alpha, src1, src2, beta, dst, axis, redux]
  else typeError

/-- `logsumexp_async`, `wrappers/python/nntile/tensor.py:672-680`. -/
def py_logsumexp_async (maxsumexp logsumexp : PyVal) : M CoreCall :=
  if maxsumexp.type ≠ logsumexp.type then typeError
  else if maxsumexp.type = .tensor .fp32 then core_logsumexp_async_fp32.call [maxsumexp, logsumexp]
  else if maxsumexp.type = .tensor .fp64 then core_logsumexp_async_fp64.call [maxsumexp, logsumexp]
  else typeError

/-- `total_sum_accum_async`, `wrappers/python/nntile/tensor.py:682-691`. -/
def py_total_sum_accum_async (alpha logsumexp src class_labels val_ : PyVal) : M CoreCall :=
  if logsumexp.type = .tensor .fp32 then core_total_sum_accum_async_fp32.call [alpha, logsumexp, src, class_labels, val_]
  else if logsumexp.type = .tensor .fp64 then core_total_sum_accum_async_fp64.call [alpha, logsumexp, src, class_labels, val_]
  else typeError

/-- `subtract_indexed_outputs_async`, `wrappers/python/nntile/tensor.py:693-700`. -/
def py_subtract_indexed_outputs_async (val_ class_labels dst : PyVal) : M CoreCall :=
  if dst.type = .tensor .fp32 then core_subtract_indexed_outputs_async_fp32.call [val_, class_labels, dst]
  else if dst.type = .tensor .fp64 then core_subtract_indexed_outputs_async_fp64.call [val_, class_labels, dst]
  else typeError

/-- `scal_async`, `wrappers/python/nntile/tensor.py:703-711`. -/
def py_scal_async (alpha x y : PyVal) : M CoreCall :=
  if x.type ≠ y.type then typeError
  else if x.type = .tensor .fp32 then core_scal_async_fp32.call [alpha, x, y]
  else if x.type = .tensor .fp64 then core_scal_async_fp64.call [alpha, x, y]
  else typeError

/-- `scal_inplace_async`, `wrappers/python/nntile/tensor.py:714-720`. -/
def py_scal_inplace_async (alpha x : PyVal) : M CoreCall :=
  if x.type = .tensor .fp32 then core_scal_inplace_async_fp32.call [alpha, x]
  else if x.type = .tensor .fp64 then core_scal_inplace_async_fp64.call [alpha, x]
  else typeError

/-- `mask_scalar_async`, `wrappers/python/nntile/tensor.py:723-730`. -/
def py_mask_scalar_async (mask alpha x batch_ndim : PyVal) : M CoreCall :=
  if x.type = .tensor .fp32 then core_mask_scalar_async_fp32.call [mask, alpha, x, batch_ndim]
  else if x.type = .tensor .fp64 then core_mask_scalar_async_fp64.call [mask, alpha, x, batch_ndim]
  else typeError

/-- `embedding_async`, `wrappers/python/nntile/tensor.py:733-742`. -/
def py_embedding_async (index vocab embed axis : PyVal) : M CoreCall :=
  if vocab.type ≠ embed.type then typeError
  else if embed.type = .tensor .fp32 then core_embedding_async_fp32.call [index, vocab, embed, axis]
  else if embed.type = .tensor .fp64 then core_embedding_async_fp64.call [index, vocab, embed, axis]
  else typeError

/-- `embedding_backward_async`, `wrappers/python/nntile/tensor.py:745-756`. -/
def py_embedding_backward_async (index embed vocab axis redux : PyVal) : M CoreCall :=
  if vocab.type ≠ embed.type then typeError
  else if embed.type = .tensor .fp32 then core_embedding_backward_async_fp32.call [index, embed, vocab, axis, redux]
  else if embed.type = .tensor .fp64 then core_embedding_backward_async_fp64.call [index, embed, vocab, axis, redux]
  else typeError

/-- `hypot_async`, `wrappers/python/nntile/tensor.py:759-767`. -/
def py_hypot_async (alpha x beta y : PyVal) : M CoreCall :=
  if x.type ≠ y.type then typeError
  else if x.type = .tensor .fp32 then core_hypot_async_fp32.call [alpha, x, beta, y]
  else if x.type = .tensor .fp64 then core_hypot_async_fp64.call [alpha, x, beta, y]
  else typeError

/-- `hypot_scalar_inverse_async`, `wrappers/python/nntile/tensor.py:770-776`. -/
def py_hypot_scalar_inverse_async (eps alpha x : PyVal) : M CoreCall :=
  if x.type = .tensor .fp32 then core_hypot_scalar_inverse_async_fp32.call [eps, alpha, x]
  else if x.type = .tensor .fp64 then core_hypot_scalar_inverse_async_fp64.call [eps, alpha, x]
  else typeError

/-- `fused_adam_step`, `wrappers/python/nntile/tensor.py:778-793`. -/
def py_fused_adam_step (p grad first_moment second_moment lr eps beta1 beta2 weight_decay num_iter : PyVal) : M CoreCall :=
  if p.type ≠ grad.type then typeError
  else if p.type ≠ first_moment.type then typeError
  else if p.type ≠ second_moment.type then typeError
  else if p.type = .tensor .fp32 then core_adam_step_async_fp32.call [num_iter, beta1, beta2, eps, lr, weight_decay, grad, first_moment, second_moment, p]
  else if p.type = .tensor .fp64 then core_adam_step_async_fp64.call [num_iter, beta1, beta2, eps, lr, weight_decay, grad, first_moment, second_moment, p]
  else typeError

/-- `fused_adamw_step`, `wrappers/python/nntile/tensor.py:795-810`. -/
def py_fused_adamw_step (p grad first_moment second_moment lr eps beta1 beta2 weight_decay num_iter : PyVal) : M CoreCall :=
  if p.type ≠ grad.type then typeError
  else if p.type ≠ first_moment.type then typeError
  else if p.type ≠ second_moment.type then typeError
  else if p.type = .tensor .fp32 then core_adamw_step_async_fp32.call [num_iter, beta1, beta2, eps, lr, weight_decay, grad, first_moment, second_moment, p]
  else if p.type = .tensor .fp64 then core_adamw_step_async_fp64.call [num_iter, beta1, beta2, eps, lr, weight_decay, grad, first_moment, second_moment, p]
  else typeError

/-- `transpose_async`, `wrappers/python/nntile/tensor.py:813-821`. -/
def py_transpose_async (alpha src dst ndim : PyVal) : M CoreCall :=
  if src.type ≠ dst.type then typeError
  else if src.type = .tensor .fp32 then core_transpose_async_fp32.call [alpha, src, dst, ndim]
  else if src.type = .tensor .fp64 then core_transpose_async_fp64.call [alpha, src, dst, ndim]
  else typeError

/-- `gemm_async` as a function of the list of its arguments. -/
def op_gemm_async : PyOp := ⟨"gemm_async", 10, [pyInt 0], fun a => py_gemm_async (a.getD 0 pyNone) (a.getD 1 pyNone) (a.getD 2 pyNone) (a.getD 3 pyNone) (a.getD 4 pyNone) (a.getD 5 pyNone) (a.getD 6 pyNone) (a.getD 7 pyNone) (a.getD 8 pyNone) (a.getD 9 pyNone)⟩

/-- `gemm_ex_async` as a function of the list of its arguments. -/
def op_gemm_ex_async : PyOp := ⟨"gemm_ex_async", 10, [pyInt 0], fun a => py_gemm_ex_async (a.getD 0 pyNone) (a.getD 1 pyNone) (a.getD 2 pyNone) (a.getD 3 pyNone) (a.getD 4 pyNone) (a.getD 5 pyNone) (a.getD 6 pyNone) (a.getD 7 pyNone) (a.getD 8 pyNone) (a.getD 9 pyNone)⟩

/-- `relu_async` as a function of the list of its arguments. -/
def op_relu_async : PyOp := ⟨"relu_async", 1, [], fun a => py_relu_async (a.getD 0 pyNone)⟩

/-- `relu_forward_async` as a function of the list of its arguments. -/
def op_relu_forward_async : PyOp := ⟨"relu_forward_async", 2, [], fun a => py_relu_forward_async (a.getD 0 pyNone) (a.getD 1 pyNone)⟩

/-- `relu_backward_async` as a function of the list of its arguments. -/
def op_relu_backward_async : PyOp := ⟨"relu_backward_async", 3, [], fun a => py_relu_backward_async (a.getD 0 pyNone) (a.getD 1 pyNone) (a.getD 2 pyNone)⟩

/-- `drelu_async` as a function of the list of its arguments. -/
def op_drelu_async : PyOp := ⟨"drelu_async", 1, [], fun a => py_drelu_async (a.getD 0 pyNone)⟩

/-- `gelu_async` as a function of the list of its arguments. -/
def op_gelu_async : PyOp := ⟨"gelu_async", 1, [], fun a => py_gelu_async (a.getD 0 pyNone)⟩

/-- `dgelu_async` as a function of the list of its arguments. -/
def op_dgelu_async : PyOp := ⟨"dgelu_async", 1, [], fun a => py_dgelu_async (a.getD 0 pyNone)⟩

/-- `gelu_backward_async` as a function of the list of its arguments. -/
def op_gelu_backward_async : PyOp := ⟨"gelu_backward_async", 3, [], fun a => py_gelu_backward_async (a.getD 0 pyNone) (a.getD 1 pyNone) (a.getD 2 pyNone)⟩

/-- `gelutanh_async` as a function of the list of its arguments. -/
def op_gelutanh_async : PyOp := ⟨"gelutanh_async", 2, [], fun a => py_gelutanh_async (a.getD 0 pyNone) (a.getD 1 pyNone)⟩

/-- `gelutanh_inplace_async` as a function of the list of its arguments. -/
def op_gelutanh_inplace_async : PyOp := ⟨"gelutanh_inplace_async", 1, [], fun a => py_gelutanh_inplace_async (a.getD 0 pyNone)⟩

/-- `dgelutanh_async` as a function of the list of its arguments. -/
def op_dgelutanh_async : PyOp := ⟨"dgelutanh_async", 1, [], fun a => py_dgelutanh_async (a.getD 0 pyNone)⟩

/-- `gelutanh_backward_async` as a function of the list of its arguments. -/
def op_gelutanh_backward_async : PyOp := ⟨"gelutanh_backward_async", 3, [], fun a => py_gelutanh_backward_async (a.getD 0 pyNone) (a.getD 1 pyNone) (a.getD 2 pyNone)⟩

/-- `fill_async` as a function of the list of its arguments. -/
def op_fill_async : PyOp := ⟨"fill_async", 2, [], fun a => py_fill_async (a.getD 0 pyNone) (a.getD 1 pyNone)⟩

/-- `sum_slice_async` as a function of the list of its arguments. -/
def op_sum_slice_async : PyOp := ⟨"sum_slice_async", 6, [pyInt 0], fun a => py_sum_slice_async (a.getD 0 pyNone) (a.getD 1 pyNone) (a.getD 2 pyNone) (a.getD 3 pyNone) (a.getD 4 pyNone) (a.getD 5 pyNone)⟩

/-- `sum_fiber_async` as a function of the list of its arguments. -/
def op_sum_fiber_async : PyOp := ⟨"sum_fiber_async", 7, [pyInt 0], fun a => py_sum_fiber_async (a.getD 0 pyNone) (a.getD 1 pyNone) (a.getD 2 pyNone) (a.getD 3 pyNone) (a.getD 4 pyNone) (a.getD 5 pyNone) (a.getD 6 pyNone)⟩

/-- `norm_slice_async` as a function of the list of its arguments. -/
def op_norm_slice_async : PyOp := ⟨"norm_slice_async", 6, [pyInt 0], fun a => py_norm_slice_async (a.getD 0 pyNone) (a.getD 1 pyNone) (a.getD 2 pyNone) (a.getD 3 pyNone) (a.getD 4 pyNone) (a.getD 5 pyNone)⟩

/-- `pow_async` as a function of the list of its arguments. -/
def op_pow_async : PyOp := ⟨"pow_async", 3, [], fun a => py_pow_async (a.getD 0 pyNone) (a.getD 1 pyNone) (a.getD 2 pyNone)⟩

/-- `sumnorm_async` as a function of the list of its arguments. -/
def op_sumnorm_async : PyOp := ⟨"sumnorm_async", 3, [], fun a => py_sumnorm_async (a.getD 0 pyNone) (a.getD 1 pyNone) (a.getD 2 pyNone)⟩

/-- `flash_softmax_gemm_async` as a function of the list of its arguments. -/
def op_flash_softmax_gemm_async : PyOp := ⟨"flash_softmax_gemm_async", 9, [pyInt 0, pyInt 0], fun a => py_flash_softmax_gemm_async (a.getD 0 pyNone) (a.getD 1 pyNone) (a.getD 2 pyNone) (a.getD 3 pyNone) (a.getD 4 pyNone) (a.getD 5 pyNone) (a.getD 6 pyNone) (a.getD 7 pyNone) (a.getD 8 pyNone)⟩

/-- `flash_softmax_gemm_backward_async` as a function of the list of its arguments. -/
def op_flash_softmax_gemm_backward_async : PyOp := ⟨"flash_softmax_gemm_backward_async", 14, [pyInt 0, pyInt 0], fun a => py_flash_softmax_gemm_backward_async (a.getD 0 pyNone) (a.getD 1 pyNone) (a.getD 2 pyNone) (a.getD 3 pyNone) (a.getD 4 pyNone) (a.getD 5 pyNone) (a.getD 6 pyNone) (a.getD 7 pyNone) (a.getD 8 pyNone) (a.getD 9 pyNone) (a.getD 10 pyNone) (a.getD 11 pyNone) (a.getD 12 pyNone) (a.getD 13 pyNone)⟩

/-- `softmax_async` as a function of the list of its arguments. -/
def op_softmax_async : PyOp := ⟨"softmax_async", 5, [], fun a => py_softmax_async (a.getD 0 pyNone) (a.getD 1 pyNone) (a.getD 2 pyNone) (a.getD 3 pyNone) (a.getD 4 pyNone)⟩

/-- `softmax_inplace_async` as a function of the list of its arguments. -/
def op_softmax_inplace_async : PyOp := ⟨"softmax_inplace_async", 4, [], fun a => py_softmax_inplace_async (a.getD 0 pyNone) (a.getD 1 pyNone) (a.getD 2 pyNone) (a.getD 3 pyNone)⟩

/-- `scatter_async` as a function of the list of its arguments. -/
def op_scatter_async : PyOp := ⟨"scatter_async", 2, [], fun a => py_scatter_async (a.getD 0 pyNone) (a.getD 1 pyNone)⟩

/-- `randn_async` as a function of the list of its arguments. -/
def op_randn_async : PyOp := ⟨"randn_async", 6, [], fun a => py_randn_async (a.getD 0 pyNone) (a.getD 1 pyNone) (a.getD 2 pyNone) (a.getD 3 pyNone) (a.getD 4 pyNone) (a.getD 5 pyNone)⟩

/-- `prod_async` as a function of the list of its arguments. -/
def op_prod_async : PyOp := ⟨"prod_async", 2, [], fun a => py_prod_async (a.getD 0 pyNone) (a.getD 1 pyNone)⟩

/-- `add_async` as a function of the list of its arguments. -/
def op_add_async : PyOp := ⟨"add_async", 4, [], fun a => py_add_async (a.getD 0 pyNone) (a.getD 1 pyNone) (a.getD 2 pyNone) (a.getD 3 pyNone)⟩

/-- `nrm2_async` as a function of the list of its arguments. -/
def op_nrm2_async : PyOp := ⟨"nrm2_async", 5, [], fun a => py_nrm2_async (a.getD 0 pyNone) (a.getD 1 pyNone) (a.getD 2 pyNone) (a.getD 3 pyNone) (a.getD 4 pyNone)⟩

/-- `normalize_async` as a function of the list of its arguments. -/
def op_normalize_async : PyOp := ⟨"normalize_async", 6, [], fun a => py_normalize_async (a.getD 0 pyNone) (a.getD 1 pyNone) (a.getD 2 pyNone) (a.getD 3 pyNone) (a.getD 4 pyNone) (a.getD 5 pyNone)⟩

/-- `flash_maxsumexp_async` as a function of the list of its arguments. -/
def op_flash_maxsumexp_async : PyOp := ⟨"flash_maxsumexp_async", 7, [pyInt 0, pyInt 0], fun a => py_flash_maxsumexp_async (a.getD 0 pyNone) (a.getD 1 pyNone) (a.getD 2 pyNone) (a.getD 3 pyNone) (a.getD 4 pyNone) (a.getD 5 pyNone) (a.getD 6 pyNone)⟩

/-- `maxsumexp_async` as a function of the list of its arguments. -/
def op_maxsumexp_async : PyOp := ⟨"maxsumexp_async", 4, [pyInt 0], fun a => py_maxsumexp_async (a.getD 0 pyNone) (a.getD 1 pyNone) (a.getD 2 pyNone) (a.getD 3 pyNone)⟩

/-- `add_slice_async` as a function of the list of its arguments. -/
def op_add_slice_async : PyOp := ⟨"add_slice_async", 5, [], fun a => py_add_slice_async (a.getD 0 pyNone) (a.getD 1 pyNone) (a.getD 2 pyNone) (a.getD 3 pyNone) (a.getD 4 pyNone)⟩

/-- `add_slice3_async` as a function of the list of its arguments. -/
def op_add_slice3_async : PyOp := ⟨"add_slice3_async", 6, [], fun a => py_add_slice3_async (a.getD 0 pyNone) (a.getD 1 pyNone) (a.getD 2 pyNone) (a.getD 3 pyNone) (a.getD 4 pyNone) (a.getD 5 pyNone)⟩

/-- `add_fiber_async` as a function of the list of its arguments. -/
def op_add_fiber_async : PyOp := ⟨"add_fiber_async", 6, [], fun a => py_add_fiber_async (a.getD 0 pyNone) (a.getD 1 pyNone) (a.getD 2 pyNone) (a.getD 3 pyNone) (a.getD 4 pyNone) (a.getD 5 pyNone)⟩

/-- `prod_slice_async` as a function of the list of its arguments. -/
def op_prod_slice_async : PyOp := ⟨"prod_slice_async", 4, [], fun a => py_prod_slice_async (a.getD 0 pyNone) (a.getD 1 pyNone) (a.getD 2 pyNone) (a.getD 3 pyNone)⟩

/-- `prod_fiber_async` as a function of the list of its arguments. -/
def op_prod_fiber_async : PyOp := ⟨"prod_fiber_async", 4, [], fun a => py_prod_fiber_async (a.getD 0 pyNone) (a.getD 1 pyNone) (a.getD 2 pyNone) (a.getD 3 pyNone)⟩

/-- `prod_fiber3_async` as a function of the list of its arguments. -/
def op_prod_fiber3_async : PyOp := ⟨"prod_fiber3_async", 5, [], fun a => py_prod_fiber3_async (a.getD 0 pyNone) (a.getD 1 pyNone) (a.getD 2 pyNone) (a.getD 3 pyNone) (a.getD 4 pyNone)⟩

/-- `add_scalar_async` as a function of the list of its arguments. -/
def op_add_scalar_async : PyOp := ⟨"add_scalar_async", 3, [], fun a => py_add_scalar_async (a.getD 0 pyNone) (a.getD 1 pyNone) (a.getD 2 pyNone)⟩

/-- `gather_async` as a function of the list of its arguments. -/
def op_gather_async : PyOp := ⟨"gather_async", 2, [], fun a => py_gather_async (a.getD 0 pyNone) (a.getD 1 pyNone)⟩

/-- `copy_intersection_async` as a function of the list of its arguments. -/
def op_copy_intersection_async : PyOp := ⟨"copy_intersection_async", 4, [], fun a => py_copy_intersection_async (a.getD 0 pyNone) (a.getD 1 pyNone) (a.getD 2 pyNone) (a.getD 3 pyNone)⟩

/-- `copy_async` as a function of the list of its arguments. -/
def op_copy_async : PyOp := ⟨"copy_async", 2, [], fun a => py_copy_async (a.getD 0 pyNone) (a.getD 1 pyNone)⟩

/-- `clear_async` as a function of the list of its arguments. -/
def op_clear_async : PyOp := ⟨"clear_async", 1, [], fun a => py_clear_async (a.getD 0 pyNone)⟩

/-- `axpy_async` as a function of the list of its arguments. -/
def op_axpy_async : PyOp := ⟨"axpy_async", 3, [], fun a => py_axpy_async (a.getD 0 pyNone) (a.getD 1 pyNone) (a.getD 2 pyNone)⟩

/-- `sqrt_async` as a function of the list of its arguments. -/
def op_sqrt_async : PyOp := ⟨"sqrt_async", 2, [], fun a => py_sqrt_async (a.getD 0 pyNone) (a.getD 1 pyNone)⟩

/-- `sqrt_inplace_async` as a function of the list of its arguments. -/
def op_sqrt_inplace_async : PyOp := ⟨"sqrt_inplace_async", 1, [], fun a => py_sqrt_inplace_async (a.getD 0 pyNone)⟩

/-- `maximum_async` as a function of the list of its arguments. -/
def op_maximum_async : PyOp := ⟨"maximum_async", 2, [], fun a => py_maximum_async (a.getD 0 pyNone) (a.getD 1 pyNone)⟩

/-- `addcdiv_async` as a function of the list of its arguments. -/
def op_addcdiv_async : PyOp := ⟨"addcdiv_async", 5, [], fun a => py_addcdiv_async (a.getD 0 pyNone) (a.getD 1 pyNone) (a.getD 2 pyNone) (a.getD 3 pyNone) (a.getD 4 pyNone)⟩

/-- `sumprod_slice_async` as a function of the list of its arguments. -/
def op_sumprod_slice_async : PyOp := ⟨"sumprod_slice_async", 7, [pyInt 0], fun a => py_sumprod_slice_async (a.getD 0 pyNone) (a.getD 1 pyNone) (a.getD 2 pyNone) (a.getD 3 pyNone) (a.getD 4 pyNone) (a.getD 5 pyNone) (a.getD 6 pyNone)⟩

/-- `sumprod_fiber_async` as a function of the list of its arguments. -/
def op_sumprod_fiber_async : PyOp := ⟨"sumprod_fiber_async", 7, [pyInt 0], fun a => py_sumprod_fiber_async (a.getD 0 pyNone) (a.getD 1 pyNone) (a.getD 2 pyNone) (a.getD 3 pyNone) (a.getD 4 pyNone) (a.getD 5 pyNone) (a.getD 6 pyNone)⟩

/-- `logsumexp_async` as a function of the list of its arguments. -/
def op_logsumexp_async : PyOp := ⟨"logsumexp_async", 2, [], fun a => py_logsumexp_async (a.getD 0 pyNone) (a.getD 1 pyNone)⟩

/-- `total_sum_accum_async` as a function of the list of its arguments. -/
def op_total_sum_accum_async : PyOp := ⟨"total_sum_accum_async", 5, [], fun a => py_total_sum_accum_async (a.getD 0 pyNone) (a.getD 1 pyNone) (a.getD 2 pyNone) (a.getD 3 pyNone) (a.getD 4 pyNone)⟩

/-- `subtract_indexed_outputs_async` as a function of the list of its arguments. -/
def op_subtract_indexed_outputs_async : PyOp := ⟨"subtract_indexed_outputs_async", 3, [], fun a => py_subtract_indexed_outputs_async (a.getD 0 pyNone) (a.getD 1 pyNone) (a.getD 2 pyNone)⟩

/-- `scal_async` as a function of the list of its arguments. -/
def op_scal_async : PyOp := ⟨"scal_async", 3, [], fun a => py_scal_async (a.getD 0 pyNone) (a.getD 1 pyNone) (a.getD 2 pyNone)⟩

/-- `scal_inplace_async` as a function of the list of its arguments. -/
def op_scal_inplace_async : PyOp := ⟨"scal_inplace_async", 2, [], fun a => py_scal_inplace_async (a.getD 0 pyNone) (a.getD 1 pyNone)⟩

/-- `mask_scalar_async` as a function of the list of its arguments. -/
def op_mask_scalar_async : PyOp := ⟨"mask_scalar_async", 4, [], fun a => py_mask_scalar_async (a.getD 0 pyNone) (a.getD 1 pyNone) (a.getD 2 pyNone) (a.getD 3 pyNone)⟩

/-- `embedding_async` as a function of the list of its arguments. -/
def op_embedding_async : PyOp := ⟨"embedding_async", 4, [], fun a => py_embedding_async (a.getD 0 pyNone) (a.getD 1 pyNone) (a.getD 2 pyNone) (a.getD 3 pyNone)⟩

/-- `embedding_backward_async` as a function of the list of its arguments. -/
def op_embedding_backward_async : PyOp := ⟨"embedding_backward_async", 5, [pyInt 0], fun a => py_embedding_backward_async (a.getD 0 pyNone) (a.getD 1 pyNone) (a.getD 2 pyNone) (a.getD 3 pyNone) (a.getD 4 pyNone)⟩

/-- `hypot_async` as a function of the list of its arguments. -/
def op_hypot_async : PyOp := ⟨"hypot_async", 4, [], fun a => py_hypot_async (a.getD 0 pyNone) (a.getD 1 pyNone) (a.getD 2 pyNone) (a.getD 3 pyNone)⟩

/-- `hypot_scalar_inverse_async` as a function of the list of its arguments. -/
def op_hypot_scalar_inverse_async : PyOp := ⟨"hypot_scalar_inverse_async", 3, [], fun a => py_hypot_scalar_inverse_async (a.getD 0 pyNone) (a.getD 1 pyNone) (a.getD 2 pyNone)⟩

/-- `fused_adam_step` as a function of the list of its arguments. -/
def op_fused_adam_step : PyOp := ⟨"fused_adam_step", 10, [], fun a => py_fused_adam_step (a.getD 0 pyNone) (a.getD 1 pyNone) (a.getD 2 pyNone) (a.getD 3 pyNone) (a.getD 4 pyNone) (a.getD 5 pyNone) (a.getD 6 pyNone) (a.getD 7 pyNone) (a.getD 8 pyNone) (a.getD 9 pyNone)⟩

/-- `fused_adamw_step` as a function of the list of its arguments. -/
def op_fused_adamw_step : PyOp := ⟨"fused_adamw_step", 10, [], fun a => py_fused_adamw_step (a.getD 0 pyNone) (a.getD 1 pyNone) (a.getD 2 pyNone) (a.getD 3 pyNone) (a.getD 4 pyNone) (a.getD 5 pyNone) (a.getD 6 pyNone) (a.getD 7 pyNone) (a.getD 8 pyNone) (a.getD 9 pyNone)⟩

/-- `transpose_async` as a function of the list of its arguments. -/
def op_transpose_async : PyOp := ⟨"transpose_async", 4, [], fun a => py_transpose_async (a.getD 0 pyNone) (a.getD 1 pyNone) (a.getD 2 pyNone) (a.getD 3 pyNone)⟩

/-- All of them. -/
def pyOps : List PyOp := [op_gemm_async, op_gemm_ex_async, op_relu_async, op_relu_forward_async, op_relu_backward_async, op_drelu_async, op_gelu_async, op_dgelu_async, op_gelu_backward_async, op_gelutanh_async, op_gelutanh_inplace_async, op_dgelutanh_async, op_gelutanh_backward_async, op_fill_async, op_sum_slice_async, op_sum_fiber_async, op_norm_slice_async, op_pow_async, op_sumnorm_async, op_flash_softmax_gemm_async, op_flash_softmax_gemm_backward_async, op_softmax_async, op_softmax_inplace_async, op_scatter_async, op_randn_async, op_prod_async, op_add_async, op_nrm2_async, op_normalize_async, op_flash_maxsumexp_async, op_maxsumexp_async, op_add_slice_async, op_add_slice3_async, op_add_fiber_async, op_prod_slice_async, op_prod_fiber_async, op_prod_fiber3_async, op_add_scalar_async, op_gather_async, op_copy_intersection_async, op_copy_async, op_clear_async, op_axpy_async, op_sqrt_async, op_sqrt_inplace_async, op_maximum_async, op_addcdiv_async, op_sumprod_slice_async, op_sumprod_fiber_async, op_logsumexp_async, op_total_sum_accum_async, op_subtract_indexed_outputs_async, op_scal_async, op_scal_inplace_async, op_mask_scalar_async, op_embedding_async, op_embedding_backward_async, op_hypot_async, op_hypot_scalar_inverse_async, op_fused_adam_step, op_fused_adamw_step, op_transpose_async]

end NNTile
