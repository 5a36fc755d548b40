import Verif.Lib.PyDispatchAll
/-!
# C72: every Python function calls the C++ function for the element type of its tensors
-/
namespace NNTile

/-- **All 62 functions of `nntile.tensor` except `scatter_async`.** For all arguments: if they fit the function for one of the element types for which it is available, then the C++ function for that
element type is called, with the arguments at their places; if not (tensors of different element types, an element type which is not available, other types, another number of arguments),
`TypeError` is raised. -/
theorem C72_dispatch_partial : List.Forall₂ (fun (f : PyOp) (sp : OpSpec) => f.name = sp.name ∧ (sp.name ≠ "scatter_async" → Obeys f sp)) pyOps opSpecs := obeys_all

/-- `scatter_async` obeys for the other element types. -/
theorem C72_scatter_partial : Obeys op_scatter_async { spec_scatter_async with types := [.fp32, .int64, .bool] } := obeys_scatter_async

/-- **`scatter_async` always raises `TypeError` for tensors in double precision**: the second test in it is for single precision again. The C++ function would be there. -/
theorem C72_scatter_fp64 (args : List PyVal) (h : Fit .fp64 spec_scatter_async.roles args) : op_scatter_async.call args = .error (.throw "TypeError") ∧ ¬ Obeys op_scatter_async spec_scatter_async := by
  have e : op_scatter_async.call args = .error (.throw "TypeError") := by
    obtain ⟨a0, _, h0, H1, rfl⟩ := List.forall₂_cons_left_iff.1 h
    obtain ⟨a1, _, h1, H2, rfl⟩ := List.forall₂_cons_left_iff.1 H1
    cases List.forall₂_nil_left_iff.1 H2
    simp only [Role.Fits] at h0 h1
    simp [PyOp.call, op_scatter_async, py_scatter_async, h0, h1, typeError]
  refine ⟨e, fun ho => ?_⟩
  have := ho.calls args 0 (Nat.zero_le _) .fp64 (by simp [spec_scatter_async]) (by simpa using h)
  rw [e] at this
  cases this

/-- The C++ function is bound for double precision, too. -/
theorem C72_scatter_core : core_scatter_async_fp64.call [⟨.tensor .fp64, 0⟩, ⟨.tensor .fp64, 1⟩] = .ok ⟨"scatter_async", .fp64, [⟨.tensor .fp64, 0⟩, ⟨.tensor .fp64, 1⟩]⟩ := by decide

/-! ### The hypotheses can be met -/

/-- A product of matrices in half precision, with the omitted `redux` set to 0; the same with one factor in single precision. -/
example : op_gemm_async.call [⟨.float, 1⟩, ⟨.trans, 0⟩, ⟨.tensor .fp16, 0⟩, ⟨.trans, 1⟩, ⟨.tensor .fp16, 1⟩, ⟨.int, 0⟩, ⟨.tensor .fp16, 2⟩, ⟨.int, 1⟩, ⟨.int, 0⟩] =
    .ok ⟨"gemm_async", .fp16, [⟨.float, 1⟩, ⟨.trans, 0⟩, ⟨.tensor .fp16, 0⟩, ⟨.trans, 1⟩, ⟨.tensor .fp16, 1⟩, ⟨.int, 0⟩, ⟨.tensor .fp16, 2⟩, ⟨.int, 1⟩, ⟨.int, 0⟩, ⟨.int, 0⟩]⟩ :=
  obeys_gemm_async.calls _ 1 (by decide) .fp16 (by simp [spec_gemm_async]) (by simp [Fit, spec_gemm_async, Role.Fits, pyInt])

example : op_gemm_async.call [⟨.float, 1⟩, ⟨.trans, 0⟩, ⟨.tensor .fp16, 0⟩, ⟨.trans, 1⟩, ⟨.tensor .fp32, 1⟩, ⟨.int, 0⟩, ⟨.tensor .fp16, 2⟩, ⟨.int, 1⟩, ⟨.int, 0⟩] = .error (.throw "TypeError") :=
  obeys_gemm_async.rejects _ (by
    intro k hk d hd h
    obtain rfl | rfl : k = 0 ∨ k = 1 := by simp only [spec_gemm_async] at hk; omega
    all_goals simp [Fit, spec_gemm_async, Role.Fits] at h
    rw [← h.1] at h
    simp at h)

example : Fit .fp64 spec_scatter_async.roles [⟨.tensor .fp64, 0⟩, ⟨.tensor .fp64, 1⟩] := by simp [Fit, spec_scatter_async, Role.Fits]

end NNTile
