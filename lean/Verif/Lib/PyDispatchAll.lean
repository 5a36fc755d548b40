import Verif.Lib.PyDispatch
/-!
# Every Python function calls the C++ function for the element type of its tensors

The theorems for the single functions were written by a program.
-/
namespace NNTile

/-- `scatter_async` without double precision. -/
def scatterPart : OpSpec := { name := "scatter_async", roles := [.T, .T], types := [.fp32, .int64, .bool] }

theorem obeys_gemm_async : Obeys op_gemm_async spec_gemm_async := by
  refine obeys_of rfl rfl (by decide) ?_ ?_
  · intro args d hd H0
    rw [spec_gemm_async, Fit] at H0
    dsimp only at H0
    obtain ⟨a0, _, h0, H1, rfl⟩ := List.forall₂_cons_left_iff.1 H0
    obtain ⟨a1, _, h1, H2, rfl⟩ := List.forall₂_cons_left_iff.1 H1
    obtain ⟨a2, _, h2, H3, rfl⟩ := List.forall₂_cons_left_iff.1 H2
    obtain ⟨a3, _, h3, H4, rfl⟩ := List.forall₂_cons_left_iff.1 H3
    obtain ⟨a4, _, h4, H5, rfl⟩ := List.forall₂_cons_left_iff.1 H4
    obtain ⟨a5, _, h5, H6, rfl⟩ := List.forall₂_cons_left_iff.1 H5
    obtain ⟨a6, _, h6, H7, rfl⟩ := List.forall₂_cons_left_iff.1 H6
    obtain ⟨a7, _, h7, H8, rfl⟩ := List.forall₂_cons_left_iff.1 H7
    obtain ⟨a8, _, h8, H9, rfl⟩ := List.forall₂_cons_left_iff.1 H8
    obtain ⟨a9, _, h9, H10, rfl⟩ := List.forall₂_cons_left_iff.1 H9
    cases List.forall₂_nil_left_iff.1 H10
    simp only [spec_gemm_async, List.mem_cons, List.not_mem_nil, or_false] at hd
    rcases hd with rfl | rfl | rfl
    all_goals
      simp only [Role.Fits] at h0 h1 h2 h3 h4 h5 h6 h7 h8 h9
      simp [op_gemm_async, py_gemm_async, spec_gemm_async, Binding.call, core_gemm_async_fp16, core_gemm_async_fp32, core_gemm_async_fp64, acceptAll, Param.accepts, h0, h1, h2, h3, h4, h5, h6, h7, h8, h9]
  · intro args hl h
    rcases args with _ | ⟨a0, args⟩
    · cases hl
    rcases args with _ | ⟨a1, args⟩
    · cases hl
    rcases args with _ | ⟨a2, args⟩
    · cases hl
    rcases args with _ | ⟨a3, args⟩
    · cases hl
    rcases args with _ | ⟨a4, args⟩
    · cases hl
    rcases args with _ | ⟨a5, args⟩
    · cases hl
    rcases args with _ | ⟨a6, args⟩
    · cases hl
    rcases args with _ | ⟨a7, args⟩
    · cases hl
    rcases args with _ | ⟨a8, args⟩
    · cases hl
    rcases args with _ | ⟨a9, args⟩
    · cases hl
    rcases args with _ | ⟨_, args⟩
    swap
    · simp [spec_gemm_async] at hl
    simp only [spec_gemm_async, Fit, List.forall₂_cons, List.forall₂_nil_left_iff, Role.Fits, List.mem_cons, List.not_mem_nil, or_false, forall_eq_or_imp, forall_eq, and_true] at h
    simp only [op_gemm_async, py_gemm_async, List.getD_cons_zero, List.getD_cons_succ]
    repeat' (with_reducible refine ite_rejects (fun _ => ?_) (fun _ => ?_))
    all_goals first
      | rfl
      | refine Binding.call_rejects ?_
        simp only [core_gemm_async_fp16, core_gemm_async_fp32, core_gemm_async_fp64, List.mem_cons, List.not_mem_nil, or_false, forall_eq, acceptAll, Param.accepts, and_true]
        first | exact h.1 | exact h.2.1 | exact h.2.2 | simpa [pyInt] using h.1 | simpa [pyInt] using h.2.1 | simpa [pyInt] using h.2.2 | tauto

theorem obeys_gemm_ex_async : Obeys op_gemm_ex_async spec_gemm_ex_async := by
  refine obeys_of rfl rfl (by decide) ?_ ?_
  · intro args d hd H0
    rw [spec_gemm_ex_async, Fit] at H0
    dsimp only at H0
    obtain ⟨a0, _, h0, H1, rfl⟩ := List.forall₂_cons_left_iff.1 H0
    obtain ⟨a1, _, h1, H2, rfl⟩ := List.forall₂_cons_left_iff.1 H1
    obtain ⟨a2, _, h2, H3, rfl⟩ := List.forall₂_cons_left_iff.1 H2
    obtain ⟨a3, _, h3, H4, rfl⟩ := List.forall₂_cons_left_iff.1 H3
    obtain ⟨a4, _, h4, H5, rfl⟩ := List.forall₂_cons_left_iff.1 H4
    obtain ⟨a5, _, h5, H6, rfl⟩ := List.forall₂_cons_left_iff.1 H5
    obtain ⟨a6, _, h6, H7, rfl⟩ := List.forall₂_cons_left_iff.1 H6
    obtain ⟨a7, _, h7, H8, rfl⟩ := List.forall₂_cons_left_iff.1 H7
    obtain ⟨a8, _, h8, H9, rfl⟩ := List.forall₂_cons_left_iff.1 H8
    obtain ⟨a9, _, h9, H10, rfl⟩ := List.forall₂_cons_left_iff.1 H9
    cases List.forall₂_nil_left_iff.1 H10
    simp only [spec_gemm_ex_async, List.mem_cons, List.not_mem_nil, or_false] at hd
    rcases hd with rfl
    all_goals
      simp only [Role.Fits] at h0 h1 h2 h3 h4 h5 h6 h7 h8 h9
      simp [op_gemm_ex_async, py_gemm_ex_async, spec_gemm_ex_async, Binding.call, core_gemm_ex_async_fp32, acceptAll, Param.accepts, h0, h1, h2, h3, h4, h5, h6, h7, h8, h9]
  · intro args hl h
    rcases args with _ | ⟨a0, args⟩
    · cases hl
    rcases args with _ | ⟨a1, args⟩
    · cases hl
    rcases args with _ | ⟨a2, args⟩
    · cases hl
    rcases args with _ | ⟨a3, args⟩
    · cases hl
    rcases args with _ | ⟨a4, args⟩
    · cases hl
    rcases args with _ | ⟨a5, args⟩
    · cases hl
    rcases args with _ | ⟨a6, args⟩
    · cases hl
    rcases args with _ | ⟨a7, args⟩
    · cases hl
    rcases args with _ | ⟨a8, args⟩
    · cases hl
    rcases args with _ | ⟨a9, args⟩
    · cases hl
    rcases args with _ | ⟨_, args⟩
    swap
    · simp [spec_gemm_ex_async] at hl
    simp only [spec_gemm_ex_async, Fit, List.forall₂_cons, List.forall₂_nil_left_iff, Role.Fits, List.mem_cons, List.not_mem_nil, or_false, forall_eq_or_imp, forall_eq, and_true] at h
    simp only [op_gemm_ex_async, py_gemm_ex_async, List.getD_cons_zero, List.getD_cons_succ]
    repeat' (with_reducible refine ite_rejects (fun _ => ?_) (fun _ => ?_))
    all_goals first
      | rfl
      | refine Binding.call_rejects ?_
        simp only [core_gemm_ex_async_fp32, List.mem_cons, List.not_mem_nil, or_false, forall_eq, acceptAll, Param.accepts, and_true]
        first | exact h | simpa using h | tauto

theorem obeys_relu_async : Obeys op_relu_async spec_relu_async := by
  refine obeys_of rfl rfl (by decide) ?_ ?_
  · intro args d hd H0
    rw [spec_relu_async, Fit] at H0
    dsimp only at H0
    obtain ⟨a0, _, h0, H1, rfl⟩ := List.forall₂_cons_left_iff.1 H0
    cases List.forall₂_nil_left_iff.1 H1
    simp only [spec_relu_async, List.mem_cons, List.not_mem_nil, or_false] at hd
    rcases hd with rfl | rfl
    all_goals
      simp only [Role.Fits] at h0
      simp [op_relu_async, py_relu_async, spec_relu_async, Binding.call, core_relu_async_fp32, core_relu_async_fp64, acceptAll, Param.accepts, h0]
  · intro args hl h
    rcases args with _ | ⟨a0, args⟩
    · cases hl
    rcases args with _ | ⟨_, args⟩
    swap
    · simp [spec_relu_async] at hl
    simp only [spec_relu_async, Fit, List.forall₂_cons, List.forall₂_nil_left_iff, Role.Fits, List.mem_cons, List.not_mem_nil, or_false, forall_eq_or_imp, forall_eq, and_true] at h
    simp only [op_relu_async, py_relu_async, List.getD_cons_zero, List.getD_cons_succ]
    repeat' (with_reducible refine ite_rejects (fun _ => ?_) (fun _ => ?_))
    all_goals first
      | rfl
      | refine Binding.call_rejects ?_
        simp only [core_relu_async_fp32, core_relu_async_fp64, List.mem_cons, List.not_mem_nil, or_false, forall_eq, acceptAll, Param.accepts, and_true]
        first | exact h.1 | exact h.2 | simpa [pyInt] using h.1 | simpa [pyInt] using h.2 | tauto

theorem obeys_relu_forward_async : Obeys op_relu_forward_async spec_relu_forward_async := by
  refine obeys_of rfl rfl (by decide) ?_ ?_
  · intro args d hd H0
    rw [spec_relu_forward_async, Fit] at H0
    dsimp only at H0
    obtain ⟨a0, _, h0, H1, rfl⟩ := List.forall₂_cons_left_iff.1 H0
    obtain ⟨a1, _, h1, H2, rfl⟩ := List.forall₂_cons_left_iff.1 H1
    cases List.forall₂_nil_left_iff.1 H2
    simp only [spec_relu_forward_async, List.mem_cons, List.not_mem_nil, or_false] at hd
    rcases hd with rfl | rfl
    all_goals
      simp only [Role.Fits] at h0 h1
      simp [op_relu_forward_async, py_relu_forward_async, spec_relu_forward_async, Binding.call, core_relu_forward_async_fp32, core_relu_forward_async_fp64, acceptAll, Param.accepts, h0, h1]
  · intro args hl h
    rcases args with _ | ⟨a0, args⟩
    · cases hl
    rcases args with _ | ⟨a1, args⟩
    · cases hl
    rcases args with _ | ⟨_, args⟩
    swap
    · simp [spec_relu_forward_async] at hl
    simp only [spec_relu_forward_async, Fit, List.forall₂_cons, List.forall₂_nil_left_iff, Role.Fits, List.mem_cons, List.not_mem_nil, or_false, forall_eq_or_imp, forall_eq, and_true] at h
    simp only [op_relu_forward_async, py_relu_forward_async, List.getD_cons_zero, List.getD_cons_succ]
    repeat' (with_reducible refine ite_rejects (fun _ => ?_) (fun _ => ?_))
    all_goals first
      | rfl
      | refine Binding.call_rejects ?_
        simp only [core_relu_forward_async_fp32, core_relu_forward_async_fp64, List.mem_cons, List.not_mem_nil, or_false, forall_eq, acceptAll, Param.accepts, and_true]
        first | exact h.1 | exact h.2 | simpa [pyInt] using h.1 | simpa [pyInt] using h.2 | tauto

theorem obeys_relu_backward_async : Obeys op_relu_backward_async spec_relu_backward_async := by
  refine obeys_of rfl rfl (by decide) ?_ ?_
  · intro args d hd H0
    rw [spec_relu_backward_async, Fit] at H0
    dsimp only at H0
    obtain ⟨a0, _, h0, H1, rfl⟩ := List.forall₂_cons_left_iff.1 H0
    obtain ⟨a1, _, h1, H2, rfl⟩ := List.forall₂_cons_left_iff.1 H1
    obtain ⟨a2, _, h2, H3, rfl⟩ := List.forall₂_cons_left_iff.1 H2
    cases List.forall₂_nil_left_iff.1 H3
    simp only [spec_relu_backward_async, List.mem_cons, List.not_mem_nil, or_false] at hd
    rcases hd with rfl | rfl
    all_goals
      simp only [Role.Fits] at h0 h1 h2
      simp [op_relu_backward_async, py_relu_backward_async, spec_relu_backward_async, Binding.call, core_relu_backward_async_fp32, core_relu_backward_async_fp64, acceptAll, Param.accepts, h0, h1, h2]
  · intro args hl h
    rcases args with _ | ⟨a0, args⟩
    · cases hl
    rcases args with _ | ⟨a1, args⟩
    · cases hl
    rcases args with _ | ⟨a2, args⟩
    · cases hl
    rcases args with _ | ⟨_, args⟩
    swap
    · simp [spec_relu_backward_async] at hl
    simp only [spec_relu_backward_async, Fit, List.forall₂_cons, List.forall₂_nil_left_iff, Role.Fits, List.mem_cons, List.not_mem_nil, or_false, forall_eq_or_imp, forall_eq, and_true] at h
    simp only [op_relu_backward_async, py_relu_backward_async, List.getD_cons_zero, List.getD_cons_succ]
    repeat' (with_reducible refine ite_rejects (fun _ => ?_) (fun _ => ?_))
    all_goals first
      | rfl
      | refine Binding.call_rejects ?_
        simp only [core_relu_backward_async_fp32, core_relu_backward_async_fp64, List.mem_cons, List.not_mem_nil, or_false, forall_eq, acceptAll, Param.accepts, and_true]
        first | exact h.1 | exact h.2 | simpa [pyInt] using h.1 | simpa [pyInt] using h.2 | tauto

theorem obeys_drelu_async : Obeys op_drelu_async spec_drelu_async := by
  refine obeys_of rfl rfl (by decide) ?_ ?_
  · intro args d hd H0
    rw [spec_drelu_async, Fit] at H0
    dsimp only at H0
    obtain ⟨a0, _, h0, H1, rfl⟩ := List.forall₂_cons_left_iff.1 H0
    cases List.forall₂_nil_left_iff.1 H1
    simp only [spec_drelu_async, List.mem_cons, List.not_mem_nil, or_false] at hd
    rcases hd with rfl | rfl
    all_goals
      simp only [Role.Fits] at h0
      simp [op_drelu_async, py_drelu_async, spec_drelu_async, Binding.call, core_drelu_async_fp32, core_drelu_async_fp64, acceptAll, Param.accepts, h0]
  · intro args hl h
    rcases args with _ | ⟨a0, args⟩
    · cases hl
    rcases args with _ | ⟨_, args⟩
    swap
    · simp [spec_drelu_async] at hl
    simp only [spec_drelu_async, Fit, List.forall₂_cons, List.forall₂_nil_left_iff, Role.Fits, List.mem_cons, List.not_mem_nil, or_false, forall_eq_or_imp, forall_eq, and_true] at h
    simp only [op_drelu_async, py_drelu_async, List.getD_cons_zero, List.getD_cons_succ]
    repeat' (with_reducible refine ite_rejects (fun _ => ?_) (fun _ => ?_))
    all_goals first
      | rfl
      | refine Binding.call_rejects ?_
        simp only [core_drelu_async_fp32, core_drelu_async_fp64, List.mem_cons, List.not_mem_nil, or_false, forall_eq, acceptAll, Param.accepts, and_true]
        first | exact h.1 | exact h.2 | simpa [pyInt] using h.1 | simpa [pyInt] using h.2 | tauto

theorem obeys_gelu_async : Obeys op_gelu_async spec_gelu_async := by
  refine obeys_of rfl rfl (by decide) ?_ ?_
  · intro args d hd H0
    rw [spec_gelu_async, Fit] at H0
    dsimp only at H0
    obtain ⟨a0, _, h0, H1, rfl⟩ := List.forall₂_cons_left_iff.1 H0
    cases List.forall₂_nil_left_iff.1 H1
    simp only [spec_gelu_async, List.mem_cons, List.not_mem_nil, or_false] at hd
    rcases hd with rfl | rfl
    all_goals
      simp only [Role.Fits] at h0
      simp [op_gelu_async, py_gelu_async, spec_gelu_async, Binding.call, core_gelu_async_fp32, core_gelu_async_fp64, acceptAll, Param.accepts, h0]
  · intro args hl h
    rcases args with _ | ⟨a0, args⟩
    · cases hl
    rcases args with _ | ⟨_, args⟩
    swap
    · simp [spec_gelu_async] at hl
    simp only [spec_gelu_async, Fit, List.forall₂_cons, List.forall₂_nil_left_iff, Role.Fits, List.mem_cons, List.not_mem_nil, or_false, forall_eq_or_imp, forall_eq, and_true] at h
    simp only [op_gelu_async, py_gelu_async, List.getD_cons_zero, List.getD_cons_succ]
    repeat' (with_reducible refine ite_rejects (fun _ => ?_) (fun _ => ?_))
    all_goals first
      | rfl
      | refine Binding.call_rejects ?_
        simp only [core_gelu_async_fp32, core_gelu_async_fp64, List.mem_cons, List.not_mem_nil, or_false, forall_eq, acceptAll, Param.accepts, and_true]
        first | exact h.1 | exact h.2 | simpa [pyInt] using h.1 | simpa [pyInt] using h.2 | tauto

theorem obeys_dgelu_async : Obeys op_dgelu_async spec_dgelu_async := by
  refine obeys_of rfl rfl (by decide) ?_ ?_
  · intro args d hd H0
    rw [spec_dgelu_async, Fit] at H0
    dsimp only at H0
    obtain ⟨a0, _, h0, H1, rfl⟩ := List.forall₂_cons_left_iff.1 H0
    cases List.forall₂_nil_left_iff.1 H1
    simp only [spec_dgelu_async, List.mem_cons, List.not_mem_nil, or_false] at hd
    rcases hd with rfl | rfl
    all_goals
      simp only [Role.Fits] at h0
      simp [op_dgelu_async, py_dgelu_async, spec_dgelu_async, Binding.call, core_dgelu_async_fp32, core_dgelu_async_fp64, acceptAll, Param.accepts, h0]
  · intro args hl h
    rcases args with _ | ⟨a0, args⟩
    · cases hl
    rcases args with _ | ⟨_, args⟩
    swap
    · simp [spec_dgelu_async] at hl
    simp only [spec_dgelu_async, Fit, List.forall₂_cons, List.forall₂_nil_left_iff, Role.Fits, List.mem_cons, List.not_mem_nil, or_false, forall_eq_or_imp, forall_eq, and_true] at h
    simp only [op_dgelu_async, py_dgelu_async, List.getD_cons_zero, List.getD_cons_succ]
    repeat' (with_reducible refine ite_rejects (fun _ => ?_) (fun _ => ?_))
    all_goals first
      | rfl
      | refine Binding.call_rejects ?_
        simp only [core_dgelu_async_fp32, core_dgelu_async_fp64, List.mem_cons, List.not_mem_nil, or_false, forall_eq, acceptAll, Param.accepts, and_true]
        first | exact h.1 | exact h.2 | simpa [pyInt] using h.1 | simpa [pyInt] using h.2 | tauto

theorem obeys_gelu_backward_async : Obeys op_gelu_backward_async spec_gelu_backward_async := by
  refine obeys_of rfl rfl (by decide) ?_ ?_
  · intro args d hd H0
    rw [spec_gelu_backward_async, Fit] at H0
    dsimp only at H0
    obtain ⟨a0, _, h0, H1, rfl⟩ := List.forall₂_cons_left_iff.1 H0
    obtain ⟨a1, _, h1, H2, rfl⟩ := List.forall₂_cons_left_iff.1 H1
    obtain ⟨a2, _, h2, H3, rfl⟩ := List.forall₂_cons_left_iff.1 H2
    cases List.forall₂_nil_left_iff.1 H3
    simp only [spec_gelu_backward_async, List.mem_cons, List.not_mem_nil, or_false] at hd
    rcases hd with rfl | rfl
    all_goals
      simp only [Role.Fits] at h0 h1 h2
      simp [op_gelu_backward_async, py_gelu_backward_async, spec_gelu_backward_async, Binding.call, core_gelu_backward_async_fp32, core_gelu_backward_async_fp64, acceptAll, Param.accepts, h0, h1, h2]
  · intro args hl h
    rcases args with _ | ⟨a0, args⟩
    · cases hl
    rcases args with _ | ⟨a1, args⟩
    · cases hl
    rcases args with _ | ⟨a2, args⟩
    · cases hl
    rcases args with _ | ⟨_, args⟩
    swap
    · simp [spec_gelu_backward_async] at hl
    simp only [spec_gelu_backward_async, Fit, List.forall₂_cons, List.forall₂_nil_left_iff, Role.Fits, List.mem_cons, List.not_mem_nil, or_false, forall_eq_or_imp, forall_eq, and_true] at h
    simp only [op_gelu_backward_async, py_gelu_backward_async, List.getD_cons_zero, List.getD_cons_succ]
    repeat' (with_reducible refine ite_rejects (fun _ => ?_) (fun _ => ?_))
    all_goals first
      | rfl
      | refine Binding.call_rejects ?_
        simp only [core_gelu_backward_async_fp32, core_gelu_backward_async_fp64, List.mem_cons, List.not_mem_nil, or_false, forall_eq, acceptAll, Param.accepts, and_true]
        first | exact h.1 | exact h.2 | simpa [pyInt] using h.1 | simpa [pyInt] using h.2 | tauto

theorem obeys_gelutanh_async : Obeys op_gelutanh_async spec_gelutanh_async := by
  refine obeys_of rfl rfl (by decide) ?_ ?_
  · intro args d hd H0
    rw [spec_gelutanh_async, Fit] at H0
    dsimp only at H0
    obtain ⟨a0, _, h0, H1, rfl⟩ := List.forall₂_cons_left_iff.1 H0
    obtain ⟨a1, _, h1, H2, rfl⟩ := List.forall₂_cons_left_iff.1 H1
    cases List.forall₂_nil_left_iff.1 H2
    simp only [spec_gelutanh_async, List.mem_cons, List.not_mem_nil, or_false] at hd
    rcases hd with rfl | rfl
    all_goals
      simp only [Role.Fits] at h0 h1
      simp [op_gelutanh_async, py_gelutanh_async, spec_gelutanh_async, Binding.call, core_gelutanh_async_fp32, core_gelutanh_async_fp64, acceptAll, Param.accepts, h0, h1]
  · intro args hl h
    rcases args with _ | ⟨a0, args⟩
    · cases hl
    rcases args with _ | ⟨a1, args⟩
    · cases hl
    rcases args with _ | ⟨_, args⟩
    swap
    · simp [spec_gelutanh_async] at hl
    simp only [spec_gelutanh_async, Fit, List.forall₂_cons, List.forall₂_nil_left_iff, Role.Fits, List.mem_cons, List.not_mem_nil, or_false, forall_eq_or_imp, forall_eq, and_true] at h
    simp only [op_gelutanh_async, py_gelutanh_async, List.getD_cons_zero, List.getD_cons_succ]
    repeat' (with_reducible refine ite_rejects (fun _ => ?_) (fun _ => ?_))
    all_goals first
      | rfl
      | refine Binding.call_rejects ?_
        simp only [core_gelutanh_async_fp32, core_gelutanh_async_fp64, List.mem_cons, List.not_mem_nil, or_false, forall_eq, acceptAll, Param.accepts, and_true]
        first | exact h.1 | exact h.2 | simpa [pyInt] using h.1 | simpa [pyInt] using h.2 | tauto

theorem obeys_gelutanh_inplace_async : Obeys op_gelutanh_inplace_async spec_gelutanh_inplace_async := by
  refine obeys_of rfl rfl (by decide) ?_ ?_
  · intro args d hd H0
    rw [spec_gelutanh_inplace_async, Fit] at H0
    dsimp only at H0
    obtain ⟨a0, _, h0, H1, rfl⟩ := List.forall₂_cons_left_iff.1 H0
    cases List.forall₂_nil_left_iff.1 H1
    simp only [spec_gelutanh_inplace_async, List.mem_cons, List.not_mem_nil, or_false] at hd
    rcases hd with rfl | rfl
    all_goals
      simp only [Role.Fits] at h0
      simp [op_gelutanh_inplace_async, py_gelutanh_inplace_async, spec_gelutanh_inplace_async, Binding.call, core_gelutanh_inplace_async_fp32, core_gelutanh_inplace_async_fp64, acceptAll, Param.accepts, h0]
  · intro args hl h
    rcases args with _ | ⟨a0, args⟩
    · cases hl
    rcases args with _ | ⟨_, args⟩
    swap
    · simp [spec_gelutanh_inplace_async] at hl
    simp only [spec_gelutanh_inplace_async, Fit, List.forall₂_cons, List.forall₂_nil_left_iff, Role.Fits, List.mem_cons, List.not_mem_nil, or_false, forall_eq_or_imp, forall_eq, and_true] at h
    simp only [op_gelutanh_inplace_async, py_gelutanh_inplace_async, List.getD_cons_zero, List.getD_cons_succ]
    repeat' (with_reducible refine ite_rejects (fun _ => ?_) (fun _ => ?_))
    all_goals first
      | rfl
      | refine Binding.call_rejects ?_
        simp only [core_gelutanh_inplace_async_fp32, core_gelutanh_inplace_async_fp64, List.mem_cons, List.not_mem_nil, or_false, forall_eq, acceptAll, Param.accepts, and_true]
        first | exact h.1 | exact h.2 | simpa [pyInt] using h.1 | simpa [pyInt] using h.2 | tauto

theorem obeys_dgelutanh_async : Obeys op_dgelutanh_async spec_dgelutanh_async := by
  refine obeys_of rfl rfl (by decide) ?_ ?_
  · intro args d hd H0
    rw [spec_dgelutanh_async, Fit] at H0
    dsimp only at H0
    obtain ⟨a0, _, h0, H1, rfl⟩ := List.forall₂_cons_left_iff.1 H0
    cases List.forall₂_nil_left_iff.1 H1
    simp only [spec_dgelutanh_async, List.mem_cons, List.not_mem_nil, or_false] at hd
    rcases hd with rfl | rfl
    all_goals
      simp only [Role.Fits] at h0
      simp [op_dgelutanh_async, py_dgelutanh_async, spec_dgelutanh_async, Binding.call, core_dgelutanh_async_fp32, core_dgelutanh_async_fp64, acceptAll, Param.accepts, h0]
  · intro args hl h
    rcases args with _ | ⟨a0, args⟩
    · cases hl
    rcases args with _ | ⟨_, args⟩
    swap
    · simp [spec_dgelutanh_async] at hl
    simp only [spec_dgelutanh_async, Fit, List.forall₂_cons, List.forall₂_nil_left_iff, Role.Fits, List.mem_cons, List.not_mem_nil, or_false, forall_eq_or_imp, forall_eq, and_true] at h
    simp only [op_dgelutanh_async, py_dgelutanh_async, List.getD_cons_zero, List.getD_cons_succ]
    repeat' (with_reducible refine ite_rejects (fun _ => ?_) (fun _ => ?_))
    all_goals first
      | rfl
      | refine Binding.call_rejects ?_
        simp only [core_dgelutanh_async_fp32, core_dgelutanh_async_fp64, List.mem_cons, List.not_mem_nil, or_false, forall_eq, acceptAll, Param.accepts, and_true]
        first | exact h.1 | exact h.2 | simpa [pyInt] using h.1 | simpa [pyInt] using h.2 | tauto

theorem obeys_gelutanh_backward_async : Obeys op_gelutanh_backward_async spec_gelutanh_backward_async := by
  refine obeys_of rfl rfl (by decide) ?_ ?_
  · intro args d hd H0
    rw [spec_gelutanh_backward_async, Fit] at H0
    dsimp only at H0
    obtain ⟨a0, _, h0, H1, rfl⟩ := List.forall₂_cons_left_iff.1 H0
    obtain ⟨a1, _, h1, H2, rfl⟩ := List.forall₂_cons_left_iff.1 H1
    obtain ⟨a2, _, h2, H3, rfl⟩ := List.forall₂_cons_left_iff.1 H2
    cases List.forall₂_nil_left_iff.1 H3
    simp only [spec_gelutanh_backward_async, List.mem_cons, List.not_mem_nil, or_false] at hd
    rcases hd with rfl | rfl
    all_goals
      simp only [Role.Fits] at h0 h1 h2
      simp [op_gelutanh_backward_async, py_gelutanh_backward_async, spec_gelutanh_backward_async, Binding.call, core_gelutanh_backward_async_fp32, core_gelutanh_backward_async_fp64, acceptAll, Param.accepts, h0, h1, h2]
  · intro args hl h
    rcases args with _ | ⟨a0, args⟩
    · cases hl
    rcases args with _ | ⟨a1, args⟩
    · cases hl
    rcases args with _ | ⟨a2, args⟩
    · cases hl
    rcases args with _ | ⟨_, args⟩
    swap
    · simp [spec_gelutanh_backward_async] at hl
    simp only [spec_gelutanh_backward_async, Fit, List.forall₂_cons, List.forall₂_nil_left_iff, Role.Fits, List.mem_cons, List.not_mem_nil, or_false, forall_eq_or_imp, forall_eq, and_true] at h
    simp only [op_gelutanh_backward_async, py_gelutanh_backward_async, List.getD_cons_zero, List.getD_cons_succ]
    repeat' (with_reducible refine ite_rejects (fun _ => ?_) (fun _ => ?_))
    all_goals first
      | rfl
      | refine Binding.call_rejects ?_
        simp only [core_gelutanh_backward_async_fp32, core_gelutanh_backward_async_fp64, List.mem_cons, List.not_mem_nil, or_false, forall_eq, acceptAll, Param.accepts, and_true]
        first | exact h.1 | exact h.2 | simpa [pyInt] using h.1 | simpa [pyInt] using h.2 | tauto

theorem obeys_fill_async : Obeys op_fill_async spec_fill_async := by
  refine obeys_of rfl rfl (by decide) ?_ ?_
  · intro args d hd H0
    rw [spec_fill_async, Fit] at H0
    dsimp only at H0
    obtain ⟨a0, _, h0, H1, rfl⟩ := List.forall₂_cons_left_iff.1 H0
    obtain ⟨a1, _, h1, H2, rfl⟩ := List.forall₂_cons_left_iff.1 H1
    cases List.forall₂_nil_left_iff.1 H2
    simp only [spec_fill_async, List.mem_cons, List.not_mem_nil, or_false] at hd
    rcases hd with rfl | rfl
    all_goals
      simp only [Role.Fits] at h0 h1
      simp [op_fill_async, py_fill_async, spec_fill_async, Binding.call, core_fill_async_fp32, core_fill_async_fp64, acceptAll, Param.accepts, h0, h1]
  · intro args hl h
    rcases args with _ | ⟨a0, args⟩
    · cases hl
    rcases args with _ | ⟨a1, args⟩
    · cases hl
    rcases args with _ | ⟨_, args⟩
    swap
    · simp [spec_fill_async] at hl
    simp only [spec_fill_async, Fit, List.forall₂_cons, List.forall₂_nil_left_iff, Role.Fits, List.mem_cons, List.not_mem_nil, or_false, forall_eq_or_imp, forall_eq, and_true] at h
    simp only [op_fill_async, py_fill_async, List.getD_cons_zero, List.getD_cons_succ]
    repeat' (with_reducible refine ite_rejects (fun _ => ?_) (fun _ => ?_))
    all_goals first
      | rfl
      | refine Binding.call_rejects ?_
        simp only [core_fill_async_fp32, core_fill_async_fp64, List.mem_cons, List.not_mem_nil, or_false, forall_eq, acceptAll, Param.accepts, and_true]
        first | exact h.1 | exact h.2 | simpa [pyInt] using h.1 | simpa [pyInt] using h.2 | tauto

theorem obeys_sum_slice_async : Obeys op_sum_slice_async spec_sum_slice_async := by
  refine obeys_of rfl rfl (by decide) ?_ ?_
  · intro args d hd H0
    rw [spec_sum_slice_async, Fit] at H0
    dsimp only at H0
    obtain ⟨a0, _, h0, H1, rfl⟩ := List.forall₂_cons_left_iff.1 H0
    obtain ⟨a1, _, h1, H2, rfl⟩ := List.forall₂_cons_left_iff.1 H1
    obtain ⟨a2, _, h2, H3, rfl⟩ := List.forall₂_cons_left_iff.1 H2
    obtain ⟨a3, _, h3, H4, rfl⟩ := List.forall₂_cons_left_iff.1 H3
    obtain ⟨a4, _, h4, H5, rfl⟩ := List.forall₂_cons_left_iff.1 H4
    obtain ⟨a5, _, h5, H6, rfl⟩ := List.forall₂_cons_left_iff.1 H5
    cases List.forall₂_nil_left_iff.1 H6
    simp only [spec_sum_slice_async, List.mem_cons, List.not_mem_nil, or_false] at hd
    rcases hd with rfl | rfl
    all_goals
      simp only [Role.Fits] at h0 h1 h2 h3 h4 h5
      simp [op_sum_slice_async, py_sum_slice_async, spec_sum_slice_async, Binding.call, core_sum_slice_async_fp32, core_sum_slice_async_fp64, acceptAll, Param.accepts, h0, h1, h2, h3, h4, h5]
  · intro args hl h
    rcases args with _ | ⟨a0, args⟩
    · cases hl
    rcases args with _ | ⟨a1, args⟩
    · cases hl
    rcases args with _ | ⟨a2, args⟩
    · cases hl
    rcases args with _ | ⟨a3, args⟩
    · cases hl
    rcases args with _ | ⟨a4, args⟩
    · cases hl
    rcases args with _ | ⟨a5, args⟩
    · cases hl
    rcases args with _ | ⟨_, args⟩
    swap
    · simp [spec_sum_slice_async] at hl
    simp only [spec_sum_slice_async, Fit, List.forall₂_cons, List.forall₂_nil_left_iff, Role.Fits, List.mem_cons, List.not_mem_nil, or_false, forall_eq_or_imp, forall_eq, and_true] at h
    simp only [op_sum_slice_async, py_sum_slice_async, List.getD_cons_zero, List.getD_cons_succ]
    repeat' (with_reducible refine ite_rejects (fun _ => ?_) (fun _ => ?_))
    all_goals first
      | rfl
      | refine Binding.call_rejects ?_
        simp only [core_sum_slice_async_fp32, core_sum_slice_async_fp64, List.mem_cons, List.not_mem_nil, or_false, forall_eq, acceptAll, Param.accepts, and_true]
        first | exact h.1 | exact h.2 | simpa [pyInt] using h.1 | simpa [pyInt] using h.2 | tauto

theorem obeys_sum_fiber_async : Obeys op_sum_fiber_async spec_sum_fiber_async := by
  refine obeys_of rfl rfl (by decide) ?_ ?_
  · intro args d hd H0
    rw [spec_sum_fiber_async, Fit] at H0
    dsimp only at H0
    obtain ⟨a0, _, h0, H1, rfl⟩ := List.forall₂_cons_left_iff.1 H0
    obtain ⟨a1, _, h1, H2, rfl⟩ := List.forall₂_cons_left_iff.1 H1
    obtain ⟨a2, _, h2, H3, rfl⟩ := List.forall₂_cons_left_iff.1 H2
    obtain ⟨a3, _, h3, H4, rfl⟩ := List.forall₂_cons_left_iff.1 H3
    obtain ⟨a4, _, h4, H5, rfl⟩ := List.forall₂_cons_left_iff.1 H4
    obtain ⟨a5, _, h5, H6, rfl⟩ := List.forall₂_cons_left_iff.1 H5
    obtain ⟨a6, _, h6, H7, rfl⟩ := List.forall₂_cons_left_iff.1 H6
    cases List.forall₂_nil_left_iff.1 H7
    simp only [spec_sum_fiber_async, List.mem_cons, List.not_mem_nil, or_false] at hd
    rcases hd with rfl | rfl
    all_goals
      simp only [Role.Fits] at h0 h1 h2 h3 h4 h5 h6
      simp [op_sum_fiber_async, py_sum_fiber_async, spec_sum_fiber_async, Binding.call, core_sum_fiber_async_fp32, core_sum_fiber_async_fp64, acceptAll, Param.accepts, h0, h1, h2, h3, h4, h5, h6]
  · intro args hl h
    rcases args with _ | ⟨a0, args⟩
    · cases hl
    rcases args with _ | ⟨a1, args⟩
    · cases hl
    rcases args with _ | ⟨a2, args⟩
    · cases hl
    rcases args with _ | ⟨a3, args⟩
    · cases hl
    rcases args with _ | ⟨a4, args⟩
    · cases hl
    rcases args with _ | ⟨a5, args⟩
    · cases hl
    rcases args with _ | ⟨a6, args⟩
    · cases hl
    rcases args with _ | ⟨_, args⟩
    swap
    · simp [spec_sum_fiber_async] at hl
    simp only [spec_sum_fiber_async, Fit, List.forall₂_cons, List.forall₂_nil_left_iff, Role.Fits, List.mem_cons, List.not_mem_nil, or_false, forall_eq_or_imp, forall_eq, and_true] at h
    simp only [op_sum_fiber_async, py_sum_fiber_async, List.getD_cons_zero, List.getD_cons_succ]
    repeat' (with_reducible refine ite_rejects (fun _ => ?_) (fun _ => ?_))
    all_goals first
      | rfl
      | refine Binding.call_rejects ?_
        simp only [core_sum_fiber_async_fp32, core_sum_fiber_async_fp64, List.mem_cons, List.not_mem_nil, or_false, forall_eq, acceptAll, Param.accepts, and_true]
        first | exact h.1 | exact h.2 | simpa [pyInt] using h.1 | simpa [pyInt] using h.2 | tauto

theorem obeys_norm_slice_async : Obeys op_norm_slice_async spec_norm_slice_async := by
  refine obeys_of rfl rfl (by decide) ?_ ?_
  · intro args d hd H0
    rw [spec_norm_slice_async, Fit] at H0
    dsimp only at H0
    obtain ⟨a0, _, h0, H1, rfl⟩ := List.forall₂_cons_left_iff.1 H0
    obtain ⟨a1, _, h1, H2, rfl⟩ := List.forall₂_cons_left_iff.1 H1
    obtain ⟨a2, _, h2, H3, rfl⟩ := List.forall₂_cons_left_iff.1 H2
    obtain ⟨a3, _, h3, H4, rfl⟩ := List.forall₂_cons_left_iff.1 H3
    obtain ⟨a4, _, h4, H5, rfl⟩ := List.forall₂_cons_left_iff.1 H4
    obtain ⟨a5, _, h5, H6, rfl⟩ := List.forall₂_cons_left_iff.1 H5
    cases List.forall₂_nil_left_iff.1 H6
    simp only [spec_norm_slice_async, List.mem_cons, List.not_mem_nil, or_false] at hd
    rcases hd with rfl | rfl
    all_goals
      simp only [Role.Fits] at h0 h1 h2 h3 h4 h5
      simp [op_norm_slice_async, py_norm_slice_async, spec_norm_slice_async, Binding.call, core_norm_slice_async_fp32, core_norm_slice_async_fp64, acceptAll, Param.accepts, h0, h1, h2, h3, h4, h5]
  · intro args hl h
    rcases args with _ | ⟨a0, args⟩
    · cases hl
    rcases args with _ | ⟨a1, args⟩
    · cases hl
    rcases args with _ | ⟨a2, args⟩
    · cases hl
    rcases args with _ | ⟨a3, args⟩
    · cases hl
    rcases args with _ | ⟨a4, args⟩
    · cases hl
    rcases args with _ | ⟨a5, args⟩
    · cases hl
    rcases args with _ | ⟨_, args⟩
    swap
    · simp [spec_norm_slice_async] at hl
    simp only [spec_norm_slice_async, Fit, List.forall₂_cons, List.forall₂_nil_left_iff, Role.Fits, List.mem_cons, List.not_mem_nil, or_false, forall_eq_or_imp, forall_eq, and_true] at h
    simp only [op_norm_slice_async, py_norm_slice_async, List.getD_cons_zero, List.getD_cons_succ]
    repeat' (with_reducible refine ite_rejects (fun _ => ?_) (fun _ => ?_))
    all_goals first
      | rfl
      | refine Binding.call_rejects ?_
        simp only [core_norm_slice_async_fp32, core_norm_slice_async_fp64, List.mem_cons, List.not_mem_nil, or_false, forall_eq, acceptAll, Param.accepts, and_true]
        first | exact h.1 | exact h.2 | simpa [pyInt] using h.1 | simpa [pyInt] using h.2 | tauto

theorem obeys_pow_async : Obeys op_pow_async spec_pow_async := by
  refine obeys_of rfl rfl (by decide) ?_ ?_
  · intro args d hd H0
    rw [spec_pow_async, Fit] at H0
    dsimp only at H0
    obtain ⟨a0, _, h0, H1, rfl⟩ := List.forall₂_cons_left_iff.1 H0
    obtain ⟨a1, _, h1, H2, rfl⟩ := List.forall₂_cons_left_iff.1 H1
    obtain ⟨a2, _, h2, H3, rfl⟩ := List.forall₂_cons_left_iff.1 H2
    cases List.forall₂_nil_left_iff.1 H3
    simp only [spec_pow_async, List.mem_cons, List.not_mem_nil, or_false] at hd
    rcases hd with rfl | rfl
    all_goals
      simp only [Role.Fits] at h0 h1 h2
      simp [op_pow_async, py_pow_async, spec_pow_async, Binding.call, core_pow_async_fp32, core_pow_async_fp64, acceptAll, Param.accepts, h0, h1, h2]
  · intro args hl h
    rcases args with _ | ⟨a0, args⟩
    · cases hl
    rcases args with _ | ⟨a1, args⟩
    · cases hl
    rcases args with _ | ⟨a2, args⟩
    · cases hl
    rcases args with _ | ⟨_, args⟩
    swap
    · simp [spec_pow_async] at hl
    simp only [spec_pow_async, Fit, List.forall₂_cons, List.forall₂_nil_left_iff, Role.Fits, List.mem_cons, List.not_mem_nil, or_false, forall_eq_or_imp, forall_eq, and_true] at h
    simp only [op_pow_async, py_pow_async, List.getD_cons_zero, List.getD_cons_succ]
    repeat' (with_reducible refine ite_rejects (fun _ => ?_) (fun _ => ?_))
    all_goals first
      | rfl
      | refine Binding.call_rejects ?_
        simp only [core_pow_async_fp32, core_pow_async_fp64, List.mem_cons, List.not_mem_nil, or_false, forall_eq, acceptAll, Param.accepts, and_true]
        first | exact h.1 | exact h.2 | simpa [pyInt] using h.1 | simpa [pyInt] using h.2 | tauto

theorem obeys_sumnorm_async : Obeys op_sumnorm_async spec_sumnorm_async := by
  refine obeys_of rfl rfl (by decide) ?_ ?_
  · intro args d hd H0
    rw [spec_sumnorm_async, Fit] at H0
    dsimp only at H0
    obtain ⟨a0, _, h0, H1, rfl⟩ := List.forall₂_cons_left_iff.1 H0
    obtain ⟨a1, _, h1, H2, rfl⟩ := List.forall₂_cons_left_iff.1 H1
    obtain ⟨a2, _, h2, H3, rfl⟩ := List.forall₂_cons_left_iff.1 H2
    cases List.forall₂_nil_left_iff.1 H3
    simp only [spec_sumnorm_async, List.mem_cons, List.not_mem_nil, or_false] at hd
    rcases hd with rfl | rfl
    all_goals
      simp only [Role.Fits] at h0 h1 h2
      simp [op_sumnorm_async, py_sumnorm_async, spec_sumnorm_async, Binding.call, core_sumnorm_async_fp32, core_sumnorm_async_fp64, acceptAll, Param.accepts, h0, h1, h2]
  · intro args hl h
    rcases args with _ | ⟨a0, args⟩
    · cases hl
    rcases args with _ | ⟨a1, args⟩
    · cases hl
    rcases args with _ | ⟨a2, args⟩
    · cases hl
    rcases args with _ | ⟨_, args⟩
    swap
    · simp [spec_sumnorm_async] at hl
    simp only [spec_sumnorm_async, Fit, List.forall₂_cons, List.forall₂_nil_left_iff, Role.Fits, List.mem_cons, List.not_mem_nil, or_false, forall_eq_or_imp, forall_eq, and_true] at h
    simp only [op_sumnorm_async, py_sumnorm_async, List.getD_cons_zero, List.getD_cons_succ]
    repeat' (with_reducible refine ite_rejects (fun _ => ?_) (fun _ => ?_))
    all_goals first
      | rfl
      | refine Binding.call_rejects ?_
        simp only [core_sumnorm_async_fp32, core_sumnorm_async_fp64, List.mem_cons, List.not_mem_nil, or_false, forall_eq, acceptAll, Param.accepts, and_true]
        first | exact h.1 | exact h.2 | simpa [pyInt] using h.1 | simpa [pyInt] using h.2 | tauto

theorem obeys_flash_softmax_gemm_async : Obeys op_flash_softmax_gemm_async spec_flash_softmax_gemm_async := by
  refine obeys_of rfl rfl (by decide) ?_ ?_
  · intro args d hd H0
    rw [spec_flash_softmax_gemm_async, Fit] at H0
    dsimp only at H0
    obtain ⟨a0, _, h0, H1, rfl⟩ := List.forall₂_cons_left_iff.1 H0
    obtain ⟨a1, _, h1, H2, rfl⟩ := List.forall₂_cons_left_iff.1 H1
    obtain ⟨a2, _, h2, H3, rfl⟩ := List.forall₂_cons_left_iff.1 H2
    obtain ⟨a3, _, h3, H4, rfl⟩ := List.forall₂_cons_left_iff.1 H3
    obtain ⟨a4, _, h4, H5, rfl⟩ := List.forall₂_cons_left_iff.1 H4
    obtain ⟨a5, _, h5, H6, rfl⟩ := List.forall₂_cons_left_iff.1 H5
    obtain ⟨a6, _, h6, H7, rfl⟩ := List.forall₂_cons_left_iff.1 H6
    obtain ⟨a7, _, h7, H8, rfl⟩ := List.forall₂_cons_left_iff.1 H7
    obtain ⟨a8, _, h8, H9, rfl⟩ := List.forall₂_cons_left_iff.1 H8
    cases List.forall₂_nil_left_iff.1 H9
    simp only [spec_flash_softmax_gemm_async, List.mem_cons, List.not_mem_nil, or_false] at hd
    rcases hd with rfl | rfl
    all_goals
      simp only [Role.Fits] at h0 h1 h2 h3 h4 h5 h6 h7 h8
      simp [op_flash_softmax_gemm_async, py_flash_softmax_gemm_async, spec_flash_softmax_gemm_async, Binding.call, core_flash_softmax_gemm_async_fp32, core_flash_softmax_gemm_async_fp64, acceptAll, Param.accepts, h0, h1, h2, h3, h4, h5, h6, h7, h8, passFast, pyInt]
  · intro args hl h
    rcases args with _ | ⟨a0, args⟩
    · cases hl
    rcases args with _ | ⟨a1, args⟩
    · cases hl
    rcases args with _ | ⟨a2, args⟩
    · cases hl
    rcases args with _ | ⟨a3, args⟩
    · cases hl
    rcases args with _ | ⟨a4, args⟩
    · cases hl
    rcases args with _ | ⟨a5, args⟩
    · cases hl
    rcases args with _ | ⟨a6, args⟩
    · cases hl
    rcases args with _ | ⟨a7, args⟩
    · cases hl
    rcases args with _ | ⟨a8, args⟩
    · cases hl
    rcases args with _ | ⟨_, args⟩
    swap
    · simp [spec_flash_softmax_gemm_async] at hl
    simp only [spec_flash_softmax_gemm_async, Fit, List.forall₂_cons, List.forall₂_nil_left_iff, Role.Fits, List.mem_cons, List.not_mem_nil, or_false, forall_eq_or_imp, forall_eq, and_true] at h
    simp only [op_flash_softmax_gemm_async, py_flash_softmax_gemm_async, List.getD_cons_zero, List.getD_cons_succ]
    repeat' (with_reducible refine ite_rejects (fun _ => ?_) (fun _ => ?_))
    all_goals first
      | rfl
      | refine Binding.call_rejects ?_
        simp only [core_flash_softmax_gemm_async_fp32, core_flash_softmax_gemm_async_fp64, List.mem_cons, List.not_mem_nil, or_false, forall_eq, acceptAll, Param.accepts, and_true]
        first | exact h.1 | exact h.2 | simpa [pyInt] using h.1 | simpa [pyInt] using h.2 | tauto

theorem obeys_flash_softmax_gemm_backward_async : Obeys op_flash_softmax_gemm_backward_async spec_flash_softmax_gemm_backward_async := by
  refine obeys_of rfl rfl (by decide) ?_ ?_
  · intro args d hd H0
    rw [spec_flash_softmax_gemm_backward_async, Fit] at H0
    dsimp only at H0
    obtain ⟨a0, _, h0, H1, rfl⟩ := List.forall₂_cons_left_iff.1 H0
    obtain ⟨a1, _, h1, H2, rfl⟩ := List.forall₂_cons_left_iff.1 H1
    obtain ⟨a2, _, h2, H3, rfl⟩ := List.forall₂_cons_left_iff.1 H2
    obtain ⟨a3, _, h3, H4, rfl⟩ := List.forall₂_cons_left_iff.1 H3
    obtain ⟨a4, _, h4, H5, rfl⟩ := List.forall₂_cons_left_iff.1 H4
    obtain ⟨a5, _, h5, H6, rfl⟩ := List.forall₂_cons_left_iff.1 H5
    obtain ⟨a6, _, h6, H7, rfl⟩ := List.forall₂_cons_left_iff.1 H6
    obtain ⟨a7, _, h7, H8, rfl⟩ := List.forall₂_cons_left_iff.1 H7
    obtain ⟨a8, _, h8, H9, rfl⟩ := List.forall₂_cons_left_iff.1 H8
    obtain ⟨a9, _, h9, H10, rfl⟩ := List.forall₂_cons_left_iff.1 H9
    obtain ⟨a10, _, h10, H11, rfl⟩ := List.forall₂_cons_left_iff.1 H10
    obtain ⟨a11, _, h11, H12, rfl⟩ := List.forall₂_cons_left_iff.1 H11
    obtain ⟨a12, _, h12, H13, rfl⟩ := List.forall₂_cons_left_iff.1 H12
    obtain ⟨a13, _, h13, H14, rfl⟩ := List.forall₂_cons_left_iff.1 H13
    cases List.forall₂_nil_left_iff.1 H14
    simp only [spec_flash_softmax_gemm_backward_async, List.mem_cons, List.not_mem_nil, or_false] at hd
    rcases hd with rfl | rfl
    all_goals
      simp only [Role.Fits] at h0 h1 h2 h3 h4 h5 h6 h7 h8 h9 h10 h11 h12 h13
      simp [op_flash_softmax_gemm_backward_async, py_flash_softmax_gemm_backward_async, spec_flash_softmax_gemm_backward_async, Binding.call, core_flash_softmax_gemm_backward_async_fp32, core_flash_softmax_gemm_backward_async_fp64, acceptAll, Param.accepts, h0, h1, h2, h3, h4, h5, h6, h7, h8, h9, h10, h11, h12, h13, passFast, pyInt]
  · intro args hl h
    rcases args with _ | ⟨a0, args⟩
    · cases hl
    rcases args with _ | ⟨a1, args⟩
    · cases hl
    rcases args with _ | ⟨a2, args⟩
    · cases hl
    rcases args with _ | ⟨a3, args⟩
    · cases hl
    rcases args with _ | ⟨a4, args⟩
    · cases hl
    rcases args with _ | ⟨a5, args⟩
    · cases hl
    rcases args with _ | ⟨a6, args⟩
    · cases hl
    rcases args with _ | ⟨a7, args⟩
    · cases hl
    rcases args with _ | ⟨a8, args⟩
    · cases hl
    rcases args with _ | ⟨a9, args⟩
    · cases hl
    rcases args with _ | ⟨a10, args⟩
    · cases hl
    rcases args with _ | ⟨a11, args⟩
    · cases hl
    rcases args with _ | ⟨a12, args⟩
    · cases hl
    rcases args with _ | ⟨a13, args⟩
    · cases hl
    rcases args with _ | ⟨_, args⟩
    swap
    · simp [spec_flash_softmax_gemm_backward_async] at hl
    simp only [spec_flash_softmax_gemm_backward_async, Fit, List.forall₂_cons, List.forall₂_nil_left_iff, Role.Fits, List.mem_cons, List.not_mem_nil, or_false, forall_eq_or_imp, forall_eq, and_true] at h
    simp only [op_flash_softmax_gemm_backward_async, py_flash_softmax_gemm_backward_async, List.getD_cons_zero, List.getD_cons_succ]
    repeat' (with_reducible refine ite_rejects (fun _ => ?_) (fun _ => ?_))
    all_goals first
      | rfl
      | refine Binding.call_rejects ?_
        simp only [core_flash_softmax_gemm_backward_async_fp32, core_flash_softmax_gemm_backward_async_fp64, List.mem_cons, List.not_mem_nil, or_false, forall_eq, acceptAll, Param.accepts, and_true]
        first | exact h.1 | exact h.2 | simpa [pyInt] using h.1 | simpa [pyInt] using h.2 | tauto

theorem obeys_softmax_async : Obeys op_softmax_async spec_softmax_async := by
  refine obeys_of rfl rfl (by decide) ?_ ?_
  · intro args d hd H0
    rw [spec_softmax_async, Fit] at H0
    dsimp only at H0
    obtain ⟨a0, _, h0, H1, rfl⟩ := List.forall₂_cons_left_iff.1 H0
    obtain ⟨a1, _, h1, H2, rfl⟩ := List.forall₂_cons_left_iff.1 H1
    obtain ⟨a2, _, h2, H3, rfl⟩ := List.forall₂_cons_left_iff.1 H2
    obtain ⟨a3, _, h3, H4, rfl⟩ := List.forall₂_cons_left_iff.1 H3
    obtain ⟨a4, _, h4, H5, rfl⟩ := List.forall₂_cons_left_iff.1 H4
    cases List.forall₂_nil_left_iff.1 H5
    simp only [spec_softmax_async, List.mem_cons, List.not_mem_nil, or_false] at hd
    rcases hd with rfl | rfl
    all_goals
      simp only [Role.Fits] at h0 h1 h2 h3 h4
      simp [op_softmax_async, py_softmax_async, spec_softmax_async, Binding.call, core_softmax_async_fp32, core_softmax_async_fp64, acceptAll, Param.accepts, h0, h1, h2, h3, h4]
  · intro args hl h
    rcases args with _ | ⟨a0, args⟩
    · cases hl
    rcases args with _ | ⟨a1, args⟩
    · cases hl
    rcases args with _ | ⟨a2, args⟩
    · cases hl
    rcases args with _ | ⟨a3, args⟩
    · cases hl
    rcases args with _ | ⟨a4, args⟩
    · cases hl
    rcases args with _ | ⟨_, args⟩
    swap
    · simp [spec_softmax_async] at hl
    simp only [spec_softmax_async, Fit, List.forall₂_cons, List.forall₂_nil_left_iff, Role.Fits, List.mem_cons, List.not_mem_nil, or_false, forall_eq_or_imp, forall_eq, and_true] at h
    simp only [op_softmax_async, py_softmax_async, List.getD_cons_zero, List.getD_cons_succ]
    repeat' (with_reducible refine ite_rejects (fun _ => ?_) (fun _ => ?_))
    all_goals first
      | rfl
      | refine Binding.call_rejects ?_
        simp only [core_softmax_async_fp32, core_softmax_async_fp64, List.mem_cons, List.not_mem_nil, or_false, forall_eq, acceptAll, Param.accepts, and_true]
        first | exact h.1 | exact h.2 | simpa [pyInt] using h.1 | simpa [pyInt] using h.2 | tauto

theorem obeys_softmax_inplace_async : Obeys op_softmax_inplace_async spec_softmax_inplace_async := by
  refine obeys_of rfl rfl (by decide) ?_ ?_
  · intro args d hd H0
    rw [spec_softmax_inplace_async, Fit] at H0
    dsimp only at H0
    obtain ⟨a0, _, h0, H1, rfl⟩ := List.forall₂_cons_left_iff.1 H0
    obtain ⟨a1, _, h1, H2, rfl⟩ := List.forall₂_cons_left_iff.1 H1
    obtain ⟨a2, _, h2, H3, rfl⟩ := List.forall₂_cons_left_iff.1 H2
    obtain ⟨a3, _, h3, H4, rfl⟩ := List.forall₂_cons_left_iff.1 H3
    cases List.forall₂_nil_left_iff.1 H4
    simp only [spec_softmax_inplace_async, List.mem_cons, List.not_mem_nil, or_false] at hd
    rcases hd with rfl | rfl
    all_goals
      simp only [Role.Fits] at h0 h1 h2 h3
      simp [op_softmax_inplace_async, py_softmax_inplace_async, spec_softmax_inplace_async, Binding.call, core_softmax_inplace_async_fp32, core_softmax_inplace_async_fp64, acceptAll, Param.accepts, h0, h1, h2, h3]
  · intro args hl h
    rcases args with _ | ⟨a0, args⟩
    · cases hl
    rcases args with _ | ⟨a1, args⟩
    · cases hl
    rcases args with _ | ⟨a2, args⟩
    · cases hl
    rcases args with _ | ⟨a3, args⟩
    · cases hl
    rcases args with _ | ⟨_, args⟩
    swap
    · simp [spec_softmax_inplace_async] at hl
    simp only [spec_softmax_inplace_async, Fit, List.forall₂_cons, List.forall₂_nil_left_iff, Role.Fits, List.mem_cons, List.not_mem_nil, or_false, forall_eq_or_imp, forall_eq, and_true] at h
    simp only [op_softmax_inplace_async, py_softmax_inplace_async, List.getD_cons_zero, List.getD_cons_succ]
    repeat' (with_reducible refine ite_rejects (fun _ => ?_) (fun _ => ?_))
    all_goals first
      | rfl
      | refine Binding.call_rejects ?_
        simp only [core_softmax_inplace_async_fp32, core_softmax_inplace_async_fp64, List.mem_cons, List.not_mem_nil, or_false, forall_eq, acceptAll, Param.accepts, and_true]
        first | exact h.1 | exact h.2 | simpa [pyInt] using h.1 | simpa [pyInt] using h.2 | tauto

theorem obeys_scatter_async : Obeys op_scatter_async scatterPart := by
  refine obeys_of rfl rfl (by decide) ?_ ?_
  · intro args d hd H0
    rw [scatterPart, Fit] at H0
    dsimp only at H0
    obtain ⟨a0, _, h0, H1, rfl⟩ := List.forall₂_cons_left_iff.1 H0
    obtain ⟨a1, _, h1, H2, rfl⟩ := List.forall₂_cons_left_iff.1 H1
    cases List.forall₂_nil_left_iff.1 H2
    simp only [scatterPart, List.mem_cons, List.not_mem_nil, or_false] at hd
    rcases hd with rfl | rfl | rfl
    all_goals
      simp only [Role.Fits] at h0 h1
      simp [op_scatter_async, py_scatter_async, scatterPart, Binding.call, core_scatter_async_bool, core_scatter_async_fp32, core_scatter_async_fp64, core_scatter_async_int64, acceptAll, Param.accepts, h0, h1]
  · intro args hl h
    rcases args with _ | ⟨a0, args⟩
    · cases hl
    rcases args with _ | ⟨a1, args⟩
    · cases hl
    rcases args with _ | ⟨_, args⟩
    swap
    · simp [scatterPart] at hl
    simp only [scatterPart, Fit, List.forall₂_cons, List.forall₂_nil_left_iff, Role.Fits, List.mem_cons, List.not_mem_nil, or_false, forall_eq_or_imp, forall_eq, and_true] at h
    simp only [op_scatter_async, py_scatter_async, List.getD_cons_zero, List.getD_cons_succ]
    repeat' (with_reducible refine ite_rejects (fun _ => ?_) (fun _ => ?_))
    all_goals first
      | rfl
      | refine Binding.call_rejects ?_
        simp only [core_scatter_async_bool, core_scatter_async_fp32, core_scatter_async_fp64, core_scatter_async_int64, List.mem_cons, List.not_mem_nil, or_false, forall_eq, acceptAll, Param.accepts, and_true]
        first | exact h.1 | exact h.2.1 | exact h.2.2 | simpa [pyInt] using h.1 | simpa [pyInt] using h.2.1 | simpa [pyInt] using h.2.2 | tauto

theorem obeys_randn_async : Obeys op_randn_async spec_randn_async := by
  refine obeys_of rfl rfl (by decide) ?_ ?_
  · intro args d hd H0
    rw [spec_randn_async, Fit] at H0
    dsimp only at H0
    obtain ⟨a0, _, h0, H1, rfl⟩ := List.forall₂_cons_left_iff.1 H0
    obtain ⟨a1, _, h1, H2, rfl⟩ := List.forall₂_cons_left_iff.1 H1
    obtain ⟨a2, _, h2, H3, rfl⟩ := List.forall₂_cons_left_iff.1 H2
    obtain ⟨a3, _, h3, H4, rfl⟩ := List.forall₂_cons_left_iff.1 H3
    obtain ⟨a4, _, h4, H5, rfl⟩ := List.forall₂_cons_left_iff.1 H4
    obtain ⟨a5, _, h5, H6, rfl⟩ := List.forall₂_cons_left_iff.1 H5
    cases List.forall₂_nil_left_iff.1 H6
    simp only [spec_randn_async, List.mem_cons, List.not_mem_nil, or_false] at hd
    rcases hd with rfl | rfl
    all_goals
      simp only [Role.Fits] at h0 h1 h2 h3 h4 h5
      simp [op_randn_async, py_randn_async, spec_randn_async, Binding.call, core_randn_async_fp32, core_randn_async_fp64, acceptAll, Param.accepts, h0, h1, h2, h3, h4, h5]
  · intro args hl h
    rcases args with _ | ⟨a0, args⟩
    · cases hl
    rcases args with _ | ⟨a1, args⟩
    · cases hl
    rcases args with _ | ⟨a2, args⟩
    · cases hl
    rcases args with _ | ⟨a3, args⟩
    · cases hl
    rcases args with _ | ⟨a4, args⟩
    · cases hl
    rcases args with _ | ⟨a5, args⟩
    · cases hl
    rcases args with _ | ⟨_, args⟩
    swap
    · simp [spec_randn_async] at hl
    simp only [spec_randn_async, Fit, List.forall₂_cons, List.forall₂_nil_left_iff, Role.Fits, List.mem_cons, List.not_mem_nil, or_false, forall_eq_or_imp, forall_eq, and_true] at h
    simp only [op_randn_async, py_randn_async, List.getD_cons_zero, List.getD_cons_succ]
    repeat' (with_reducible refine ite_rejects (fun _ => ?_) (fun _ => ?_))
    all_goals first
      | rfl
      | refine Binding.call_rejects ?_
        simp only [core_randn_async_fp32, core_randn_async_fp64, List.mem_cons, List.not_mem_nil, or_false, forall_eq, acceptAll, Param.accepts, and_true]
        first | exact h.1 | exact h.2 | simpa [pyInt] using h.1 | simpa [pyInt] using h.2 | tauto

theorem obeys_prod_async : Obeys op_prod_async spec_prod_async := by
  refine obeys_of rfl rfl (by decide) ?_ ?_
  · intro args d hd H0
    rw [spec_prod_async, Fit] at H0
    dsimp only at H0
    obtain ⟨a0, _, h0, H1, rfl⟩ := List.forall₂_cons_left_iff.1 H0
    obtain ⟨a1, _, h1, H2, rfl⟩ := List.forall₂_cons_left_iff.1 H1
    cases List.forall₂_nil_left_iff.1 H2
    simp only [spec_prod_async, List.mem_cons, List.not_mem_nil, or_false] at hd
    rcases hd with rfl | rfl
    all_goals
      simp only [Role.Fits] at h0 h1
      simp [op_prod_async, py_prod_async, spec_prod_async, Binding.call, core_prod_async_fp32, core_prod_async_fp64, acceptAll, Param.accepts, h0, h1]
  · intro args hl h
    rcases args with _ | ⟨a0, args⟩
    · cases hl
    rcases args with _ | ⟨a1, args⟩
    · cases hl
    rcases args with _ | ⟨_, args⟩
    swap
    · simp [spec_prod_async] at hl
    simp only [spec_prod_async, Fit, List.forall₂_cons, List.forall₂_nil_left_iff, Role.Fits, List.mem_cons, List.not_mem_nil, or_false, forall_eq_or_imp, forall_eq, and_true] at h
    simp only [op_prod_async, py_prod_async, List.getD_cons_zero, List.getD_cons_succ]
    repeat' (with_reducible refine ite_rejects (fun _ => ?_) (fun _ => ?_))
    all_goals first
      | rfl
      | refine Binding.call_rejects ?_
        simp only [core_prod_async_fp32, core_prod_async_fp64, List.mem_cons, List.not_mem_nil, or_false, forall_eq, acceptAll, Param.accepts, and_true]
        first | exact h.1 | exact h.2 | simpa [pyInt] using h.1 | simpa [pyInt] using h.2 | tauto

theorem obeys_add_async : Obeys op_add_async spec_add_async := by
  refine obeys_of rfl rfl (by decide) ?_ ?_
  · intro args d hd H0
    rw [spec_add_async, Fit] at H0
    dsimp only at H0
    obtain ⟨a0, _, h0, H1, rfl⟩ := List.forall₂_cons_left_iff.1 H0
    obtain ⟨a1, _, h1, H2, rfl⟩ := List.forall₂_cons_left_iff.1 H1
    obtain ⟨a2, _, h2, H3, rfl⟩ := List.forall₂_cons_left_iff.1 H2
    obtain ⟨a3, _, h3, H4, rfl⟩ := List.forall₂_cons_left_iff.1 H3
    cases List.forall₂_nil_left_iff.1 H4
    simp only [spec_add_async, List.mem_cons, List.not_mem_nil, or_false] at hd
    rcases hd with rfl | rfl
    all_goals
      simp only [Role.Fits] at h0 h1 h2 h3
      simp [op_add_async, py_add_async, spec_add_async, Binding.call, core_add_async_fp32, core_add_async_fp64, acceptAll, Param.accepts, h0, h1, h2, h3]
  · intro args hl h
    rcases args with _ | ⟨a0, args⟩
    · cases hl
    rcases args with _ | ⟨a1, args⟩
    · cases hl
    rcases args with _ | ⟨a2, args⟩
    · cases hl
    rcases args with _ | ⟨a3, args⟩
    · cases hl
    rcases args with _ | ⟨_, args⟩
    swap
    · simp [spec_add_async] at hl
    simp only [spec_add_async, Fit, List.forall₂_cons, List.forall₂_nil_left_iff, Role.Fits, List.mem_cons, List.not_mem_nil, or_false, forall_eq_or_imp, forall_eq, and_true] at h
    simp only [op_add_async, py_add_async, List.getD_cons_zero, List.getD_cons_succ]
    repeat' (with_reducible refine ite_rejects (fun _ => ?_) (fun _ => ?_))
    all_goals first
      | rfl
      | refine Binding.call_rejects ?_
        simp only [core_add_async_fp32, core_add_async_fp64, List.mem_cons, List.not_mem_nil, or_false, forall_eq, acceptAll, Param.accepts, and_true]
        first | exact h.1 | exact h.2 | simpa [pyInt] using h.1 | simpa [pyInt] using h.2 | tauto

theorem obeys_nrm2_async : Obeys op_nrm2_async spec_nrm2_async := by
  refine obeys_of rfl rfl (by decide) ?_ ?_
  · intro args d hd H0
    rw [spec_nrm2_async, Fit] at H0
    dsimp only at H0
    obtain ⟨a0, _, h0, H1, rfl⟩ := List.forall₂_cons_left_iff.1 H0
    obtain ⟨a1, _, h1, H2, rfl⟩ := List.forall₂_cons_left_iff.1 H1
    obtain ⟨a2, _, h2, H3, rfl⟩ := List.forall₂_cons_left_iff.1 H2
    obtain ⟨a3, _, h3, H4, rfl⟩ := List.forall₂_cons_left_iff.1 H3
    obtain ⟨a4, _, h4, H5, rfl⟩ := List.forall₂_cons_left_iff.1 H4
    cases List.forall₂_nil_left_iff.1 H5
    simp only [spec_nrm2_async, List.mem_cons, List.not_mem_nil, or_false] at hd
    rcases hd with rfl | rfl
    all_goals
      simp only [Role.Fits] at h0 h1 h2 h3 h4
      simp [op_nrm2_async, py_nrm2_async, spec_nrm2_async, Binding.call, core_nrm2_async_fp32, core_nrm2_async_fp64, acceptAll, Param.accepts, h0, h1, h2, h3, h4]
  · intro args hl h
    rcases args with _ | ⟨a0, args⟩
    · cases hl
    rcases args with _ | ⟨a1, args⟩
    · cases hl
    rcases args with _ | ⟨a2, args⟩
    · cases hl
    rcases args with _ | ⟨a3, args⟩
    · cases hl
    rcases args with _ | ⟨a4, args⟩
    · cases hl
    rcases args with _ | ⟨_, args⟩
    swap
    · simp [spec_nrm2_async] at hl
    simp only [spec_nrm2_async, Fit, List.forall₂_cons, List.forall₂_nil_left_iff, Role.Fits, List.mem_cons, List.not_mem_nil, or_false, forall_eq_or_imp, forall_eq, and_true] at h
    simp only [op_nrm2_async, py_nrm2_async, List.getD_cons_zero, List.getD_cons_succ]
    repeat' (with_reducible refine ite_rejects (fun _ => ?_) (fun _ => ?_))
    all_goals first
      | rfl
      | refine Binding.call_rejects ?_
        simp only [core_nrm2_async_fp32, core_nrm2_async_fp64, List.mem_cons, List.not_mem_nil, or_false, forall_eq, acceptAll, Param.accepts, and_true]
        first | exact h.1 | exact h.2 | simpa [pyInt] using h.1 | simpa [pyInt] using h.2 | tauto

theorem obeys_normalize_async : Obeys op_normalize_async spec_normalize_async := by
  refine obeys_of rfl rfl (by decide) ?_ ?_
  · intro args d hd H0
    rw [spec_normalize_async, Fit] at H0
    dsimp only at H0
    obtain ⟨a0, _, h0, H1, rfl⟩ := List.forall₂_cons_left_iff.1 H0
    obtain ⟨a1, _, h1, H2, rfl⟩ := List.forall₂_cons_left_iff.1 H1
    obtain ⟨a2, _, h2, H3, rfl⟩ := List.forall₂_cons_left_iff.1 H2
    obtain ⟨a3, _, h3, H4, rfl⟩ := List.forall₂_cons_left_iff.1 H3
    obtain ⟨a4, _, h4, H5, rfl⟩ := List.forall₂_cons_left_iff.1 H4
    obtain ⟨a5, _, h5, H6, rfl⟩ := List.forall₂_cons_left_iff.1 H5
    cases List.forall₂_nil_left_iff.1 H6
    simp only [spec_normalize_async, List.mem_cons, List.not_mem_nil, or_false] at hd
    rcases hd with rfl | rfl
    all_goals
      simp only [Role.Fits] at h0 h1 h2 h3 h4 h5
      simp [op_normalize_async, py_normalize_async, spec_normalize_async, Binding.call, core_normalize_async_fp32, core_normalize_async_fp64, acceptAll, Param.accepts, h0, h1, h2, h3, h4, h5]
  · intro args hl h
    rcases args with _ | ⟨a0, args⟩
    · cases hl
    rcases args with _ | ⟨a1, args⟩
    · cases hl
    rcases args with _ | ⟨a2, args⟩
    · cases hl
    rcases args with _ | ⟨a3, args⟩
    · cases hl
    rcases args with _ | ⟨a4, args⟩
    · cases hl
    rcases args with _ | ⟨a5, args⟩
    · cases hl
    rcases args with _ | ⟨_, args⟩
    swap
    · simp [spec_normalize_async] at hl
    simp only [spec_normalize_async, Fit, List.forall₂_cons, List.forall₂_nil_left_iff, Role.Fits, List.mem_cons, List.not_mem_nil, or_false, forall_eq_or_imp, forall_eq, and_true] at h
    simp only [op_normalize_async, py_normalize_async, List.getD_cons_zero, List.getD_cons_succ]
    repeat' (with_reducible refine ite_rejects (fun _ => ?_) (fun _ => ?_))
    all_goals first
      | rfl
      | refine Binding.call_rejects ?_
        simp only [core_normalize_async_fp32, core_normalize_async_fp64, List.mem_cons, List.not_mem_nil, or_false, forall_eq, acceptAll, Param.accepts, and_true]
        first | exact h.1 | exact h.2 | simpa [pyInt] using h.1 | simpa [pyInt] using h.2 | tauto

theorem obeys_flash_maxsumexp_async : Obeys op_flash_maxsumexp_async spec_flash_maxsumexp_async := by
  refine obeys_of rfl rfl (by decide) ?_ ?_
  · intro args d hd H0
    rw [spec_flash_maxsumexp_async, Fit] at H0
    dsimp only at H0
    obtain ⟨a0, _, h0, H1, rfl⟩ := List.forall₂_cons_left_iff.1 H0
    obtain ⟨a1, _, h1, H2, rfl⟩ := List.forall₂_cons_left_iff.1 H1
    obtain ⟨a2, _, h2, H3, rfl⟩ := List.forall₂_cons_left_iff.1 H2
    obtain ⟨a3, _, h3, H4, rfl⟩ := List.forall₂_cons_left_iff.1 H3
    obtain ⟨a4, _, h4, H5, rfl⟩ := List.forall₂_cons_left_iff.1 H4
    obtain ⟨a5, _, h5, H6, rfl⟩ := List.forall₂_cons_left_iff.1 H5
    obtain ⟨a6, _, h6, H7, rfl⟩ := List.forall₂_cons_left_iff.1 H6
    cases List.forall₂_nil_left_iff.1 H7
    simp only [spec_flash_maxsumexp_async, List.mem_cons, List.not_mem_nil, or_false] at hd
    rcases hd with rfl | rfl
    all_goals
      simp only [Role.Fits] at h0 h1 h2 h3 h4 h5 h6
      simp [op_flash_maxsumexp_async, py_flash_maxsumexp_async, spec_flash_maxsumexp_async, Binding.call, core_flash_maxsumexp_async_fp32, core_flash_maxsumexp_async_fp64, acceptAll, Param.accepts, h0, h1, h2, h3, h4, h5, h6, passFast, pyInt]
  · intro args hl h
    rcases args with _ | ⟨a0, args⟩
    · cases hl
    rcases args with _ | ⟨a1, args⟩
    · cases hl
    rcases args with _ | ⟨a2, args⟩
    · cases hl
    rcases args with _ | ⟨a3, args⟩
    · cases hl
    rcases args with _ | ⟨a4, args⟩
    · cases hl
    rcases args with _ | ⟨a5, args⟩
    · cases hl
    rcases args with _ | ⟨a6, args⟩
    · cases hl
    rcases args with _ | ⟨_, args⟩
    swap
    · simp [spec_flash_maxsumexp_async] at hl
    simp only [spec_flash_maxsumexp_async, Fit, List.forall₂_cons, List.forall₂_nil_left_iff, Role.Fits, List.mem_cons, List.not_mem_nil, or_false, forall_eq_or_imp, forall_eq, and_true] at h
    simp only [op_flash_maxsumexp_async, py_flash_maxsumexp_async, List.getD_cons_zero, List.getD_cons_succ]
    repeat' (with_reducible refine ite_rejects (fun _ => ?_) (fun _ => ?_))
    all_goals first
      | rfl
      | refine Binding.call_rejects ?_
        simp only [core_flash_maxsumexp_async_fp32, core_flash_maxsumexp_async_fp64, List.mem_cons, List.not_mem_nil, or_false, forall_eq, acceptAll, Param.accepts, and_true]
        first | exact h.1 | exact h.2 | simpa [pyInt] using h.1 | simpa [pyInt] using h.2 | tauto

theorem obeys_maxsumexp_async : Obeys op_maxsumexp_async spec_maxsumexp_async := by
  refine obeys_of rfl rfl (by decide) ?_ ?_
  · intro args d hd H0
    rw [spec_maxsumexp_async, Fit] at H0
    dsimp only at H0
    obtain ⟨a0, _, h0, H1, rfl⟩ := List.forall₂_cons_left_iff.1 H0
    obtain ⟨a1, _, h1, H2, rfl⟩ := List.forall₂_cons_left_iff.1 H1
    obtain ⟨a2, _, h2, H3, rfl⟩ := List.forall₂_cons_left_iff.1 H2
    obtain ⟨a3, _, h3, H4, rfl⟩ := List.forall₂_cons_left_iff.1 H3
    cases List.forall₂_nil_left_iff.1 H4
    simp only [spec_maxsumexp_async, List.mem_cons, List.not_mem_nil, or_false] at hd
    rcases hd with rfl | rfl
    all_goals
      simp only [Role.Fits] at h0 h1 h2 h3
      simp [op_maxsumexp_async, py_maxsumexp_async, spec_maxsumexp_async, Binding.call, core_maxsumexp_async_fp32, core_maxsumexp_async_fp64, acceptAll, Param.accepts, h0, h1, h2, h3]
  · intro args hl h
    rcases args with _ | ⟨a0, args⟩
    · cases hl
    rcases args with _ | ⟨a1, args⟩
    · cases hl
    rcases args with _ | ⟨a2, args⟩
    · cases hl
    rcases args with _ | ⟨a3, args⟩
    · cases hl
    rcases args with _ | ⟨_, args⟩
    swap
    · simp [spec_maxsumexp_async] at hl
    simp only [spec_maxsumexp_async, Fit, List.forall₂_cons, List.forall₂_nil_left_iff, Role.Fits, List.mem_cons, List.not_mem_nil, or_false, forall_eq_or_imp, forall_eq, and_true] at h
    simp only [op_maxsumexp_async, py_maxsumexp_async, List.getD_cons_zero, List.getD_cons_succ]
    repeat' (with_reducible refine ite_rejects (fun _ => ?_) (fun _ => ?_))
    all_goals first
      | rfl
      | refine Binding.call_rejects ?_
        simp only [core_maxsumexp_async_fp32, core_maxsumexp_async_fp64, List.mem_cons, List.not_mem_nil, or_false, forall_eq, acceptAll, Param.accepts, and_true]
        first | exact h.1 | exact h.2 | simpa [pyInt] using h.1 | simpa [pyInt] using h.2 | tauto

theorem obeys_add_slice_async : Obeys op_add_slice_async spec_add_slice_async := by
  refine obeys_of rfl rfl (by decide) ?_ ?_
  · intro args d hd H0
    rw [spec_add_slice_async, Fit] at H0
    dsimp only at H0
    obtain ⟨a0, _, h0, H1, rfl⟩ := List.forall₂_cons_left_iff.1 H0
    obtain ⟨a1, _, h1, H2, rfl⟩ := List.forall₂_cons_left_iff.1 H1
    obtain ⟨a2, _, h2, H3, rfl⟩ := List.forall₂_cons_left_iff.1 H2
    obtain ⟨a3, _, h3, H4, rfl⟩ := List.forall₂_cons_left_iff.1 H3
    obtain ⟨a4, _, h4, H5, rfl⟩ := List.forall₂_cons_left_iff.1 H4
    cases List.forall₂_nil_left_iff.1 H5
    simp only [spec_add_slice_async, List.mem_cons, List.not_mem_nil, or_false] at hd
    rcases hd with rfl | rfl
    all_goals
      simp only [Role.Fits] at h0 h1 h2 h3 h4
      simp [op_add_slice_async, py_add_slice_async, spec_add_slice_async, Binding.call, core_add_slice_async_fp32, core_add_slice_async_fp64, acceptAll, Param.accepts, h0, h1, h2, h3, h4]
  · intro args hl h
    rcases args with _ | ⟨a0, args⟩
    · cases hl
    rcases args with _ | ⟨a1, args⟩
    · cases hl
    rcases args with _ | ⟨a2, args⟩
    · cases hl
    rcases args with _ | ⟨a3, args⟩
    · cases hl
    rcases args with _ | ⟨a4, args⟩
    · cases hl
    rcases args with _ | ⟨_, args⟩
    swap
    · simp [spec_add_slice_async] at hl
    simp only [spec_add_slice_async, Fit, List.forall₂_cons, List.forall₂_nil_left_iff, Role.Fits, List.mem_cons, List.not_mem_nil, or_false, forall_eq_or_imp, forall_eq, and_true] at h
    simp only [op_add_slice_async, py_add_slice_async, List.getD_cons_zero, List.getD_cons_succ]
    repeat' (with_reducible refine ite_rejects (fun _ => ?_) (fun _ => ?_))
    all_goals first
      | rfl
      | refine Binding.call_rejects ?_
        simp only [core_add_slice_async_fp32, core_add_slice_async_fp64, List.mem_cons, List.not_mem_nil, or_false, forall_eq, acceptAll, Param.accepts, and_true]
        first | exact h.1 | exact h.2 | simpa [pyInt] using h.1 | simpa [pyInt] using h.2 | tauto

theorem obeys_add_slice3_async : Obeys op_add_slice3_async spec_add_slice3_async := by
  refine obeys_of rfl rfl (by decide) ?_ ?_
  · intro args d hd H0
    rw [spec_add_slice3_async, Fit] at H0
    dsimp only at H0
    obtain ⟨a0, _, h0, H1, rfl⟩ := List.forall₂_cons_left_iff.1 H0
    obtain ⟨a1, _, h1, H2, rfl⟩ := List.forall₂_cons_left_iff.1 H1
    obtain ⟨a2, _, h2, H3, rfl⟩ := List.forall₂_cons_left_iff.1 H2
    obtain ⟨a3, _, h3, H4, rfl⟩ := List.forall₂_cons_left_iff.1 H3
    obtain ⟨a4, _, h4, H5, rfl⟩ := List.forall₂_cons_left_iff.1 H4
    obtain ⟨a5, _, h5, H6, rfl⟩ := List.forall₂_cons_left_iff.1 H5
    cases List.forall₂_nil_left_iff.1 H6
    simp only [spec_add_slice3_async, List.mem_cons, List.not_mem_nil, or_false] at hd
    rcases hd with rfl | rfl
    all_goals
      simp only [Role.Fits] at h0 h1 h2 h3 h4 h5
      simp [op_add_slice3_async, py_add_slice3_async, spec_add_slice3_async, Binding.call, core_add_slice3_async_fp32, core_add_slice3_async_fp64, acceptAll, Param.accepts, h0, h1, h2, h3, h4, h5]
  · intro args hl h
    rcases args with _ | ⟨a0, args⟩
    · cases hl
    rcases args with _ | ⟨a1, args⟩
    · cases hl
    rcases args with _ | ⟨a2, args⟩
    · cases hl
    rcases args with _ | ⟨a3, args⟩
    · cases hl
    rcases args with _ | ⟨a4, args⟩
    · cases hl
    rcases args with _ | ⟨a5, args⟩
    · cases hl
    rcases args with _ | ⟨_, args⟩
    swap
    · simp [spec_add_slice3_async] at hl
    simp only [spec_add_slice3_async, Fit, List.forall₂_cons, List.forall₂_nil_left_iff, Role.Fits, List.mem_cons, List.not_mem_nil, or_false, forall_eq_or_imp, forall_eq, and_true] at h
    simp only [op_add_slice3_async, py_add_slice3_async, List.getD_cons_zero, List.getD_cons_succ]
    repeat' (with_reducible refine ite_rejects (fun _ => ?_) (fun _ => ?_))
    all_goals first
      | rfl
      | refine Binding.call_rejects ?_
        simp only [core_add_slice3_async_fp32, core_add_slice3_async_fp64, List.mem_cons, List.not_mem_nil, or_false, forall_eq, acceptAll, Param.accepts, and_true]
        first | exact h.1 | exact h.2 | simpa [pyInt] using h.1 | simpa [pyInt] using h.2 | tauto

theorem obeys_add_fiber_async : Obeys op_add_fiber_async spec_add_fiber_async := by
  refine obeys_of rfl rfl (by decide) ?_ ?_
  · intro args d hd H0
    rw [spec_add_fiber_async, Fit] at H0
    dsimp only at H0
    obtain ⟨a0, _, h0, H1, rfl⟩ := List.forall₂_cons_left_iff.1 H0
    obtain ⟨a1, _, h1, H2, rfl⟩ := List.forall₂_cons_left_iff.1 H1
    obtain ⟨a2, _, h2, H3, rfl⟩ := List.forall₂_cons_left_iff.1 H2
    obtain ⟨a3, _, h3, H4, rfl⟩ := List.forall₂_cons_left_iff.1 H3
    obtain ⟨a4, _, h4, H5, rfl⟩ := List.forall₂_cons_left_iff.1 H4
    obtain ⟨a5, _, h5, H6, rfl⟩ := List.forall₂_cons_left_iff.1 H5
    cases List.forall₂_nil_left_iff.1 H6
    simp only [spec_add_fiber_async, List.mem_cons, List.not_mem_nil, or_false] at hd
    rcases hd with rfl | rfl
    all_goals
      simp only [Role.Fits] at h0 h1 h2 h3 h4 h5
      simp [op_add_fiber_async, py_add_fiber_async, spec_add_fiber_async, Binding.call, core_add_fiber_async_fp32, core_add_fiber_async_fp64, acceptAll, Param.accepts, h0, h1, h2, h3, h4, h5]
  · intro args hl h
    rcases args with _ | ⟨a0, args⟩
    · cases hl
    rcases args with _ | ⟨a1, args⟩
    · cases hl
    rcases args with _ | ⟨a2, args⟩
    · cases hl
    rcases args with _ | ⟨a3, args⟩
    · cases hl
    rcases args with _ | ⟨a4, args⟩
    · cases hl
    rcases args with _ | ⟨a5, args⟩
    · cases hl
    rcases args with _ | ⟨_, args⟩
    swap
    · simp [spec_add_fiber_async] at hl
    simp only [spec_add_fiber_async, Fit, List.forall₂_cons, List.forall₂_nil_left_iff, Role.Fits, List.mem_cons, List.not_mem_nil, or_false, forall_eq_or_imp, forall_eq, and_true] at h
    simp only [op_add_fiber_async, py_add_fiber_async, List.getD_cons_zero, List.getD_cons_succ]
    repeat' (with_reducible refine ite_rejects (fun _ => ?_) (fun _ => ?_))
    all_goals first
      | rfl
      | refine Binding.call_rejects ?_
        simp only [core_add_fiber_async_fp32, core_add_fiber_async_fp64, List.mem_cons, List.not_mem_nil, or_false, forall_eq, acceptAll, Param.accepts, and_true]
        first | exact h.1 | exact h.2 | simpa [pyInt] using h.1 | simpa [pyInt] using h.2 | tauto

theorem obeys_prod_slice_async : Obeys op_prod_slice_async spec_prod_slice_async := by
  refine obeys_of rfl rfl (by decide) ?_ ?_
  · intro args d hd H0
    rw [spec_prod_slice_async, Fit] at H0
    dsimp only at H0
    obtain ⟨a0, _, h0, H1, rfl⟩ := List.forall₂_cons_left_iff.1 H0
    obtain ⟨a1, _, h1, H2, rfl⟩ := List.forall₂_cons_left_iff.1 H1
    obtain ⟨a2, _, h2, H3, rfl⟩ := List.forall₂_cons_left_iff.1 H2
    obtain ⟨a3, _, h3, H4, rfl⟩ := List.forall₂_cons_left_iff.1 H3
    cases List.forall₂_nil_left_iff.1 H4
    simp only [spec_prod_slice_async, List.mem_cons, List.not_mem_nil, or_false] at hd
    rcases hd with rfl | rfl
    all_goals
      simp only [Role.Fits] at h0 h1 h2 h3
      simp [op_prod_slice_async, py_prod_slice_async, spec_prod_slice_async, Binding.call, core_prod_slice_async_fp32, core_prod_slice_async_fp64, acceptAll, Param.accepts, h0, h1, h2, h3]
  · intro args hl h
    rcases args with _ | ⟨a0, args⟩
    · cases hl
    rcases args with _ | ⟨a1, args⟩
    · cases hl
    rcases args with _ | ⟨a2, args⟩
    · cases hl
    rcases args with _ | ⟨a3, args⟩
    · cases hl
    rcases args with _ | ⟨_, args⟩
    swap
    · simp [spec_prod_slice_async] at hl
    simp only [spec_prod_slice_async, Fit, List.forall₂_cons, List.forall₂_nil_left_iff, Role.Fits, List.mem_cons, List.not_mem_nil, or_false, forall_eq_or_imp, forall_eq, and_true] at h
    simp only [op_prod_slice_async, py_prod_slice_async, List.getD_cons_zero, List.getD_cons_succ]
    repeat' (with_reducible refine ite_rejects (fun _ => ?_) (fun _ => ?_))
    all_goals first
      | rfl
      | refine Binding.call_rejects ?_
        simp only [core_prod_slice_async_fp32, core_prod_slice_async_fp64, List.mem_cons, List.not_mem_nil, or_false, forall_eq, acceptAll, Param.accepts, and_true]
        first | exact h.1 | exact h.2 | simpa [pyInt] using h.1 | simpa [pyInt] using h.2 | tauto

theorem obeys_prod_fiber_async : Obeys op_prod_fiber_async spec_prod_fiber_async := by
  refine obeys_of rfl rfl (by decide) ?_ ?_
  · intro args d hd H0
    rw [spec_prod_fiber_async, Fit] at H0
    dsimp only at H0
    obtain ⟨a0, _, h0, H1, rfl⟩ := List.forall₂_cons_left_iff.1 H0
    obtain ⟨a1, _, h1, H2, rfl⟩ := List.forall₂_cons_left_iff.1 H1
    obtain ⟨a2, _, h2, H3, rfl⟩ := List.forall₂_cons_left_iff.1 H2
    obtain ⟨a3, _, h3, H4, rfl⟩ := List.forall₂_cons_left_iff.1 H3
    cases List.forall₂_nil_left_iff.1 H4
    simp only [spec_prod_fiber_async, List.mem_cons, List.not_mem_nil, or_false] at hd
    rcases hd with rfl | rfl
    all_goals
      simp only [Role.Fits] at h0 h1 h2 h3
      simp [op_prod_fiber_async, py_prod_fiber_async, spec_prod_fiber_async, Binding.call, core_prod_fiber_async_fp32, core_prod_fiber_async_fp64, acceptAll, Param.accepts, h0, h1, h2, h3]
  · intro args hl h
    rcases args with _ | ⟨a0, args⟩
    · cases hl
    rcases args with _ | ⟨a1, args⟩
    · cases hl
    rcases args with _ | ⟨a2, args⟩
    · cases hl
    rcases args with _ | ⟨a3, args⟩
    · cases hl
    rcases args with _ | ⟨_, args⟩
    swap
    · simp [spec_prod_fiber_async] at hl
    simp only [spec_prod_fiber_async, Fit, List.forall₂_cons, List.forall₂_nil_left_iff, Role.Fits, List.mem_cons, List.not_mem_nil, or_false, forall_eq_or_imp, forall_eq, and_true] at h
    simp only [op_prod_fiber_async, py_prod_fiber_async, List.getD_cons_zero, List.getD_cons_succ]
    repeat' (with_reducible refine ite_rejects (fun _ => ?_) (fun _ => ?_))
    all_goals first
      | rfl
      | refine Binding.call_rejects ?_
        simp only [core_prod_fiber_async_fp32, core_prod_fiber_async_fp64, List.mem_cons, List.not_mem_nil, or_false, forall_eq, acceptAll, Param.accepts, and_true]
        first | exact h.1 | exact h.2 | simpa [pyInt] using h.1 | simpa [pyInt] using h.2 | tauto

theorem obeys_prod_fiber3_async : Obeys op_prod_fiber3_async spec_prod_fiber3_async := by
  refine obeys_of rfl rfl (by decide) ?_ ?_
  · intro args d hd H0
    rw [spec_prod_fiber3_async, Fit] at H0
    dsimp only at H0
    obtain ⟨a0, _, h0, H1, rfl⟩ := List.forall₂_cons_left_iff.1 H0
    obtain ⟨a1, _, h1, H2, rfl⟩ := List.forall₂_cons_left_iff.1 H1
    obtain ⟨a2, _, h2, H3, rfl⟩ := List.forall₂_cons_left_iff.1 H2
    obtain ⟨a3, _, h3, H4, rfl⟩ := List.forall₂_cons_left_iff.1 H3
    obtain ⟨a4, _, h4, H5, rfl⟩ := List.forall₂_cons_left_iff.1 H4
    cases List.forall₂_nil_left_iff.1 H5
    simp only [spec_prod_fiber3_async, List.mem_cons, List.not_mem_nil, or_false] at hd
    rcases hd with rfl | rfl
    all_goals
      simp only [Role.Fits] at h0 h1 h2 h3 h4
      simp [op_prod_fiber3_async, py_prod_fiber3_async, spec_prod_fiber3_async, Binding.call, core_prod_fiber3_async_fp32, core_prod_fiber3_async_fp64, acceptAll, Param.accepts, h0, h1, h2, h3, h4]
  · intro args hl h
    rcases args with _ | ⟨a0, args⟩
    · cases hl
    rcases args with _ | ⟨a1, args⟩
    · cases hl
    rcases args with _ | ⟨a2, args⟩
    · cases hl
    rcases args with _ | ⟨a3, args⟩
    · cases hl
    rcases args with _ | ⟨a4, args⟩
    · cases hl
    rcases args with _ | ⟨_, args⟩
    swap
    · simp [spec_prod_fiber3_async] at hl
    simp only [spec_prod_fiber3_async, Fit, List.forall₂_cons, List.forall₂_nil_left_iff, Role.Fits, List.mem_cons, List.not_mem_nil, or_false, forall_eq_or_imp, forall_eq, and_true] at h
    simp only [op_prod_fiber3_async, py_prod_fiber3_async, List.getD_cons_zero, List.getD_cons_succ]
    repeat' (with_reducible refine ite_rejects (fun _ => ?_) (fun _ => ?_))
    all_goals first
      | rfl
      | refine Binding.call_rejects ?_
        simp only [core_prod_fiber3_async_fp32, core_prod_fiber3_async_fp64, List.mem_cons, List.not_mem_nil, or_false, forall_eq, acceptAll, Param.accepts, and_true]
        first | exact h.1 | exact h.2 | simpa [pyInt] using h.1 | simpa [pyInt] using h.2 | tauto

theorem obeys_add_scalar_async : Obeys op_add_scalar_async spec_add_scalar_async := by
  refine obeys_of rfl rfl (by decide) ?_ ?_
  · intro args d hd H0
    rw [spec_add_scalar_async, Fit] at H0
    dsimp only at H0
    obtain ⟨a0, _, h0, H1, rfl⟩ := List.forall₂_cons_left_iff.1 H0
    obtain ⟨a1, _, h1, H2, rfl⟩ := List.forall₂_cons_left_iff.1 H1
    obtain ⟨a2, _, h2, H3, rfl⟩ := List.forall₂_cons_left_iff.1 H2
    cases List.forall₂_nil_left_iff.1 H3
    simp only [spec_add_scalar_async, List.mem_cons, List.not_mem_nil, or_false] at hd
    rcases hd with rfl | rfl
    all_goals
      simp only [Role.Fits] at h0 h1 h2
      simp [op_add_scalar_async, py_add_scalar_async, spec_add_scalar_async, Binding.call, core_add_scalar_async_fp32, core_add_scalar_async_fp64, acceptAll, Param.accepts, h0, h1, h2]
  · intro args hl h
    rcases args with _ | ⟨a0, args⟩
    · cases hl
    rcases args with _ | ⟨a1, args⟩
    · cases hl
    rcases args with _ | ⟨a2, args⟩
    · cases hl
    rcases args with _ | ⟨_, args⟩
    swap
    · simp [spec_add_scalar_async] at hl
    simp only [spec_add_scalar_async, Fit, List.forall₂_cons, List.forall₂_nil_left_iff, Role.Fits, List.mem_cons, List.not_mem_nil, or_false, forall_eq_or_imp, forall_eq, and_true] at h
    simp only [op_add_scalar_async, py_add_scalar_async, List.getD_cons_zero, List.getD_cons_succ]
    repeat' (with_reducible refine ite_rejects (fun _ => ?_) (fun _ => ?_))
    all_goals first
      | rfl
      | refine Binding.call_rejects ?_
        simp only [core_add_scalar_async_fp32, core_add_scalar_async_fp64, List.mem_cons, List.not_mem_nil, or_false, forall_eq, acceptAll, Param.accepts, and_true]
        first | exact h.1 | exact h.2 | simpa [pyInt] using h.1 | simpa [pyInt] using h.2 | tauto

theorem obeys_gather_async : Obeys op_gather_async spec_gather_async := by
  refine obeys_of rfl rfl (by decide) ?_ ?_
  · intro args d hd H0
    rw [spec_gather_async, Fit] at H0
    dsimp only at H0
    obtain ⟨a0, _, h0, H1, rfl⟩ := List.forall₂_cons_left_iff.1 H0
    obtain ⟨a1, _, h1, H2, rfl⟩ := List.forall₂_cons_left_iff.1 H1
    cases List.forall₂_nil_left_iff.1 H2
    simp only [spec_gather_async, List.mem_cons, List.not_mem_nil, or_false] at hd
    rcases hd with rfl | rfl | rfl | rfl
    all_goals
      simp only [Role.Fits] at h0 h1
      simp [op_gather_async, py_gather_async, spec_gather_async, Binding.call, core_gather_async_bool, core_gather_async_fp32, core_gather_async_fp64, core_gather_async_int64, acceptAll, Param.accepts, h0, h1]
  · intro args hl h
    rcases args with _ | ⟨a0, args⟩
    · cases hl
    rcases args with _ | ⟨a1, args⟩
    · cases hl
    rcases args with _ | ⟨_, args⟩
    swap
    · simp [spec_gather_async] at hl
    simp only [spec_gather_async, Fit, List.forall₂_cons, List.forall₂_nil_left_iff, Role.Fits, List.mem_cons, List.not_mem_nil, or_false, forall_eq_or_imp, forall_eq, and_true] at h
    simp only [op_gather_async, py_gather_async, List.getD_cons_zero, List.getD_cons_succ]
    repeat' (with_reducible refine ite_rejects (fun _ => ?_) (fun _ => ?_))
    all_goals first
      | rfl
      | refine Binding.call_rejects ?_
        simp only [core_gather_async_bool, core_gather_async_fp32, core_gather_async_fp64, core_gather_async_int64, List.mem_cons, List.not_mem_nil, or_false, forall_eq, acceptAll, Param.accepts, and_true]
        first | exact h.1 | exact h.2.1 | exact h.2.2.1 | exact h.2.2.2 | simpa [pyInt] using h.1 | simpa [pyInt] using h.2.1 | simpa [pyInt] using h.2.2.1 | simpa [pyInt] using h.2.2.2 | tauto

theorem obeys_copy_intersection_async : Obeys op_copy_intersection_async spec_copy_intersection_async := by
  refine obeys_of rfl rfl (by decide) ?_ ?_
  · intro args d hd H0
    rw [spec_copy_intersection_async, Fit] at H0
    dsimp only at H0
    obtain ⟨a0, _, h0, H1, rfl⟩ := List.forall₂_cons_left_iff.1 H0
    obtain ⟨a1, _, h1, H2, rfl⟩ := List.forall₂_cons_left_iff.1 H1
    obtain ⟨a2, _, h2, H3, rfl⟩ := List.forall₂_cons_left_iff.1 H2
    obtain ⟨a3, _, h3, H4, rfl⟩ := List.forall₂_cons_left_iff.1 H3
    cases List.forall₂_nil_left_iff.1 H4
    simp only [spec_copy_intersection_async, List.mem_cons, List.not_mem_nil, or_false] at hd
    rcases hd with rfl | rfl | rfl
    all_goals
      simp only [Role.Fits] at h0 h1 h2 h3
      simp [op_copy_intersection_async, py_copy_intersection_async, spec_copy_intersection_async, Binding.call, core_copy_intersection_async_fp32, core_copy_intersection_async_fp64, core_copy_intersection_async_int64, acceptAll, Param.accepts, h0, h1, h2, h3]
  · intro args hl h
    rcases args with _ | ⟨a0, args⟩
    · cases hl
    rcases args with _ | ⟨a1, args⟩
    · cases hl
    rcases args with _ | ⟨a2, args⟩
    · cases hl
    rcases args with _ | ⟨a3, args⟩
    · cases hl
    rcases args with _ | ⟨_, args⟩
    swap
    · simp [spec_copy_intersection_async] at hl
    simp only [spec_copy_intersection_async, Fit, List.forall₂_cons, List.forall₂_nil_left_iff, Role.Fits, List.mem_cons, List.not_mem_nil, or_false, forall_eq_or_imp, forall_eq, and_true] at h
    simp only [op_copy_intersection_async, py_copy_intersection_async, List.getD_cons_zero, List.getD_cons_succ]
    repeat' (with_reducible refine ite_rejects (fun _ => ?_) (fun _ => ?_))
    all_goals first
      | rfl
      | refine Binding.call_rejects ?_
        simp only [core_copy_intersection_async_fp32, core_copy_intersection_async_fp64, core_copy_intersection_async_int64, List.mem_cons, List.not_mem_nil, or_false, forall_eq, acceptAll, Param.accepts, and_true]
        first | exact h.1 | exact h.2.1 | exact h.2.2 | simpa [pyInt] using h.1 | simpa [pyInt] using h.2.1 | simpa [pyInt] using h.2.2 | tauto

theorem obeys_copy_async : Obeys op_copy_async spec_copy_async := by
  refine obeys_of rfl rfl (by decide) ?_ ?_
  · intro args d hd H0
    rw [spec_copy_async, Fit] at H0
    dsimp only at H0
    obtain ⟨a0, _, h0, H1, rfl⟩ := List.forall₂_cons_left_iff.1 H0
    obtain ⟨a1, _, h1, H2, rfl⟩ := List.forall₂_cons_left_iff.1 H1
    cases List.forall₂_nil_left_iff.1 H2
    simp only [spec_copy_async, List.mem_cons, List.not_mem_nil, or_false] at hd
    rcases hd with rfl | rfl | rfl
    all_goals
      simp only [Role.Fits] at h0 h1
      simp [op_copy_async, py_copy_async, spec_copy_async, Binding.call, core_copy_async_fp32, core_copy_async_fp64, core_copy_async_int64, acceptAll, Param.accepts, h0, h1]
  · intro args hl h
    rcases args with _ | ⟨a0, args⟩
    · cases hl
    rcases args with _ | ⟨a1, args⟩
    · cases hl
    rcases args with _ | ⟨_, args⟩
    swap
    · simp [spec_copy_async] at hl
    simp only [spec_copy_async, Fit, List.forall₂_cons, List.forall₂_nil_left_iff, Role.Fits, List.mem_cons, List.not_mem_nil, or_false, forall_eq_or_imp, forall_eq, and_true] at h
    simp only [op_copy_async, py_copy_async, List.getD_cons_zero, List.getD_cons_succ]
    repeat' (with_reducible refine ite_rejects (fun _ => ?_) (fun _ => ?_))
    all_goals first
      | rfl
      | refine Binding.call_rejects ?_
        simp only [core_copy_async_fp32, core_copy_async_fp64, core_copy_async_int64, List.mem_cons, List.not_mem_nil, or_false, forall_eq, acceptAll, Param.accepts, and_true]
        first | exact h.1 | exact h.2.1 | exact h.2.2 | simpa [pyInt] using h.1 | simpa [pyInt] using h.2.1 | simpa [pyInt] using h.2.2 | tauto

theorem obeys_clear_async : Obeys op_clear_async spec_clear_async := by
  refine obeys_of rfl rfl (by decide) ?_ ?_
  · intro args d hd H0
    rw [spec_clear_async, Fit] at H0
    dsimp only at H0
    obtain ⟨a0, _, h0, H1, rfl⟩ := List.forall₂_cons_left_iff.1 H0
    cases List.forall₂_nil_left_iff.1 H1
    simp only [spec_clear_async, List.mem_cons, List.not_mem_nil, or_false] at hd
    rcases hd with rfl | rfl
    all_goals
      simp only [Role.Fits] at h0
      simp [op_clear_async, py_clear_async, spec_clear_async, Binding.call, core_clear_async_fp32, core_clear_async_fp64, acceptAll, Param.accepts, h0]
  · intro args hl h
    rcases args with _ | ⟨a0, args⟩
    · cases hl
    rcases args with _ | ⟨_, args⟩
    swap
    · simp [spec_clear_async] at hl
    simp only [spec_clear_async, Fit, List.forall₂_cons, List.forall₂_nil_left_iff, Role.Fits, List.mem_cons, List.not_mem_nil, or_false, forall_eq_or_imp, forall_eq, and_true] at h
    simp only [op_clear_async, py_clear_async, List.getD_cons_zero, List.getD_cons_succ]
    repeat' (with_reducible refine ite_rejects (fun _ => ?_) (fun _ => ?_))
    all_goals first
      | rfl
      | refine Binding.call_rejects ?_
        simp only [core_clear_async_fp32, core_clear_async_fp64, List.mem_cons, List.not_mem_nil, or_false, forall_eq, acceptAll, Param.accepts, and_true]
        first | exact h.1 | exact h.2 | simpa [pyInt] using h.1 | simpa [pyInt] using h.2 | tauto

theorem obeys_axpy_async : Obeys op_axpy_async spec_axpy_async := by
  refine obeys_of rfl rfl (by decide) ?_ ?_
  · intro args d hd H0
    rw [spec_axpy_async, Fit] at H0
    dsimp only at H0
    obtain ⟨a0, _, h0, H1, rfl⟩ := List.forall₂_cons_left_iff.1 H0
    obtain ⟨a1, _, h1, H2, rfl⟩ := List.forall₂_cons_left_iff.1 H1
    obtain ⟨a2, _, h2, H3, rfl⟩ := List.forall₂_cons_left_iff.1 H2
    cases List.forall₂_nil_left_iff.1 H3
    simp only [spec_axpy_async, List.mem_cons, List.not_mem_nil, or_false] at hd
    rcases hd with rfl | rfl
    all_goals
      simp only [Role.Fits] at h0 h1 h2
      simp [op_axpy_async, py_axpy_async, spec_axpy_async, Binding.call, core_axpy_async_fp32, core_axpy_async_fp64, acceptAll, Param.accepts, h0, h1, h2]
      tauto
  · intro args hl h
    rcases args with _ | ⟨a0, args⟩
    · cases hl
    rcases args with _ | ⟨a1, args⟩
    · cases hl
    rcases args with _ | ⟨a2, args⟩
    · cases hl
    rcases args with _ | ⟨_, args⟩
    swap
    · simp [spec_axpy_async] at hl
    simp only [spec_axpy_async, Fit, List.forall₂_cons, List.forall₂_nil_left_iff, Role.Fits, List.mem_cons, List.not_mem_nil, or_false, forall_eq_or_imp, forall_eq, and_true] at h
    simp only [op_axpy_async, py_axpy_async, List.getD_cons_zero, List.getD_cons_succ]
    repeat' (with_reducible refine ite_rejects (fun _ => ?_) (fun _ => ?_))
    all_goals first
      | rfl
      | refine Binding.call_rejects ?_
        simp only [core_axpy_async_fp32, core_axpy_async_fp64, List.mem_cons, List.not_mem_nil, or_false, forall_eq_or_imp, forall_eq, acceptAll, Param.accepts, and_true]
        first | exact h.1 | exact h.2 | simpa [pyInt] using h.1 | simpa [pyInt] using h.2 | tauto

theorem obeys_sqrt_async : Obeys op_sqrt_async spec_sqrt_async := by
  refine obeys_of rfl rfl (by decide) ?_ ?_
  · intro args d hd H0
    rw [spec_sqrt_async, Fit] at H0
    dsimp only at H0
    obtain ⟨a0, _, h0, H1, rfl⟩ := List.forall₂_cons_left_iff.1 H0
    obtain ⟨a1, _, h1, H2, rfl⟩ := List.forall₂_cons_left_iff.1 H1
    cases List.forall₂_nil_left_iff.1 H2
    simp only [spec_sqrt_async, List.mem_cons, List.not_mem_nil, or_false] at hd
    rcases hd with rfl | rfl
    all_goals
      simp only [Role.Fits] at h0 h1
      simp [op_sqrt_async, py_sqrt_async, spec_sqrt_async, Binding.call, core_sqrt_async_fp32, core_sqrt_async_fp64, acceptAll, Param.accepts, h0, h1]
  · intro args hl h
    rcases args with _ | ⟨a0, args⟩
    · cases hl
    rcases args with _ | ⟨a1, args⟩
    · cases hl
    rcases args with _ | ⟨_, args⟩
    swap
    · simp [spec_sqrt_async] at hl
    simp only [spec_sqrt_async, Fit, List.forall₂_cons, List.forall₂_nil_left_iff, Role.Fits, List.mem_cons, List.not_mem_nil, or_false, forall_eq_or_imp, forall_eq, and_true] at h
    simp only [op_sqrt_async, py_sqrt_async, List.getD_cons_zero, List.getD_cons_succ]
    repeat' (with_reducible refine ite_rejects (fun _ => ?_) (fun _ => ?_))
    all_goals first
      | rfl
      | refine Binding.call_rejects ?_
        simp only [core_sqrt_async_fp32, core_sqrt_async_fp64, List.mem_cons, List.not_mem_nil, or_false, forall_eq, acceptAll, Param.accepts, and_true]
        first | exact h.1 | exact h.2 | simpa [pyInt] using h.1 | simpa [pyInt] using h.2 | tauto

theorem obeys_sqrt_inplace_async : Obeys op_sqrt_inplace_async spec_sqrt_inplace_async := by
  refine obeys_of rfl rfl (by decide) ?_ ?_
  · intro args d hd H0
    rw [spec_sqrt_inplace_async, Fit] at H0
    dsimp only at H0
    obtain ⟨a0, _, h0, H1, rfl⟩ := List.forall₂_cons_left_iff.1 H0
    cases List.forall₂_nil_left_iff.1 H1
    simp only [spec_sqrt_inplace_async, List.mem_cons, List.not_mem_nil, or_false] at hd
    rcases hd with rfl | rfl
    all_goals
      simp only [Role.Fits] at h0
      simp [op_sqrt_inplace_async, py_sqrt_inplace_async, spec_sqrt_inplace_async, Binding.call, core_sqrt_inplace_async_fp32, core_sqrt_inplace_async_fp64, acceptAll, Param.accepts, h0]
  · intro args hl h
    rcases args with _ | ⟨a0, args⟩
    · cases hl
    rcases args with _ | ⟨_, args⟩
    swap
    · simp [spec_sqrt_inplace_async] at hl
    simp only [spec_sqrt_inplace_async, Fit, List.forall₂_cons, List.forall₂_nil_left_iff, Role.Fits, List.mem_cons, List.not_mem_nil, or_false, forall_eq_or_imp, forall_eq, and_true] at h
    simp only [op_sqrt_inplace_async, py_sqrt_inplace_async, List.getD_cons_zero, List.getD_cons_succ]
    repeat' (with_reducible refine ite_rejects (fun _ => ?_) (fun _ => ?_))
    all_goals first
      | rfl
      | refine Binding.call_rejects ?_
        simp only [core_sqrt_inplace_async_fp32, core_sqrt_inplace_async_fp64, List.mem_cons, List.not_mem_nil, or_false, forall_eq, acceptAll, Param.accepts, and_true]
        first | exact h.1 | exact h.2 | simpa [pyInt] using h.1 | simpa [pyInt] using h.2 | tauto

theorem obeys_maximum_async : Obeys op_maximum_async spec_maximum_async := by
  refine obeys_of rfl rfl (by decide) ?_ ?_
  · intro args d hd H0
    rw [spec_maximum_async, Fit] at H0
    dsimp only at H0
    obtain ⟨a0, _, h0, H1, rfl⟩ := List.forall₂_cons_left_iff.1 H0
    obtain ⟨a1, _, h1, H2, rfl⟩ := List.forall₂_cons_left_iff.1 H1
    cases List.forall₂_nil_left_iff.1 H2
    simp only [spec_maximum_async, List.mem_cons, List.not_mem_nil, or_false] at hd
    rcases hd with rfl | rfl
    all_goals
      simp only [Role.Fits] at h0 h1
      simp [op_maximum_async, py_maximum_async, spec_maximum_async, Binding.call, core_maximum_async_fp32, core_maximum_async_fp64, acceptAll, Param.accepts, h0, h1]
  · intro args hl h
    rcases args with _ | ⟨a0, args⟩
    · cases hl
    rcases args with _ | ⟨a1, args⟩
    · cases hl
    rcases args with _ | ⟨_, args⟩
    swap
    · simp [spec_maximum_async] at hl
    simp only [spec_maximum_async, Fit, List.forall₂_cons, List.forall₂_nil_left_iff, Role.Fits, List.mem_cons, List.not_mem_nil, or_false, forall_eq_or_imp, forall_eq, and_true] at h
    simp only [op_maximum_async, py_maximum_async, List.getD_cons_zero, List.getD_cons_succ]
    repeat' (with_reducible refine ite_rejects (fun _ => ?_) (fun _ => ?_))
    all_goals first
      | rfl
      | refine Binding.call_rejects ?_
        simp only [core_maximum_async_fp32, core_maximum_async_fp64, List.mem_cons, List.not_mem_nil, or_false, forall_eq, acceptAll, Param.accepts, and_true]
        first | exact h.1 | exact h.2 | simpa [pyInt] using h.1 | simpa [pyInt] using h.2 | tauto

theorem obeys_addcdiv_async : Obeys op_addcdiv_async spec_addcdiv_async := by
  refine obeys_of rfl rfl (by decide) ?_ ?_
  · intro args d hd H0
    rw [spec_addcdiv_async, Fit] at H0
    dsimp only at H0
    obtain ⟨a0, _, h0, H1, rfl⟩ := List.forall₂_cons_left_iff.1 H0
    obtain ⟨a1, _, h1, H2, rfl⟩ := List.forall₂_cons_left_iff.1 H1
    obtain ⟨a2, _, h2, H3, rfl⟩ := List.forall₂_cons_left_iff.1 H2
    obtain ⟨a3, _, h3, H4, rfl⟩ := List.forall₂_cons_left_iff.1 H3
    obtain ⟨a4, _, h4, H5, rfl⟩ := List.forall₂_cons_left_iff.1 H4
    cases List.forall₂_nil_left_iff.1 H5
    simp only [spec_addcdiv_async, List.mem_cons, List.not_mem_nil, or_false] at hd
    rcases hd with rfl | rfl
    all_goals
      simp only [Role.Fits] at h0 h1 h2 h3 h4
      simp [op_addcdiv_async, py_addcdiv_async, spec_addcdiv_async, Binding.call, core_addcdiv_async_fp32, core_addcdiv_async_fp64, acceptAll, Param.accepts, h0, h1, h2, h3, h4]
  · intro args hl h
    rcases args with _ | ⟨a0, args⟩
    · cases hl
    rcases args with _ | ⟨a1, args⟩
    · cases hl
    rcases args with _ | ⟨a2, args⟩
    · cases hl
    rcases args with _ | ⟨a3, args⟩
    · cases hl
    rcases args with _ | ⟨a4, args⟩
    · cases hl
    rcases args with _ | ⟨_, args⟩
    swap
    · simp [spec_addcdiv_async] at hl
    simp only [spec_addcdiv_async, Fit, List.forall₂_cons, List.forall₂_nil_left_iff, Role.Fits, List.mem_cons, List.not_mem_nil, or_false, forall_eq_or_imp, forall_eq, and_true] at h
    simp only [op_addcdiv_async, py_addcdiv_async, List.getD_cons_zero, List.getD_cons_succ]
    repeat' (with_reducible refine ite_rejects (fun _ => ?_) (fun _ => ?_))
    all_goals first
      | rfl
      | refine Binding.call_rejects ?_
        simp only [core_addcdiv_async_fp32, core_addcdiv_async_fp64, List.mem_cons, List.not_mem_nil, or_false, forall_eq, acceptAll, Param.accepts, and_true]
        first | exact h.1 | exact h.2 | simpa [pyInt] using h.1 | simpa [pyInt] using h.2 | tauto

theorem obeys_sumprod_slice_async : Obeys op_sumprod_slice_async spec_sumprod_slice_async := by
  refine obeys_of rfl rfl (by decide) ?_ ?_
  · intro args d hd H0
    rw [spec_sumprod_slice_async, Fit] at H0
    dsimp only at H0
    obtain ⟨a0, _, h0, H1, rfl⟩ := List.forall₂_cons_left_iff.1 H0
    obtain ⟨a1, _, h1, H2, rfl⟩ := List.forall₂_cons_left_iff.1 H1
    obtain ⟨a2, _, h2, H3, rfl⟩ := List.forall₂_cons_left_iff.1 H2
    obtain ⟨a3, _, h3, H4, rfl⟩ := List.forall₂_cons_left_iff.1 H3
    obtain ⟨a4, _, h4, H5, rfl⟩ := List.forall₂_cons_left_iff.1 H4
    obtain ⟨a5, _, h5, H6, rfl⟩ := List.forall₂_cons_left_iff.1 H5
    obtain ⟨a6, _, h6, H7, rfl⟩ := List.forall₂_cons_left_iff.1 H6
    cases List.forall₂_nil_left_iff.1 H7
    simp only [spec_sumprod_slice_async, List.mem_cons, List.not_mem_nil, or_false] at hd
    rcases hd with rfl | rfl
    all_goals
      simp only [Role.Fits] at h0 h1 h2 h3 h4 h5 h6
      simp [op_sumprod_slice_async, py_sumprod_slice_async, spec_sumprod_slice_async, Binding.call, core_sumprod_slice_async_fp32, core_sumprod_slice_async_fp64, acceptAll, Param.accepts, h0, h1, h2, h3, h4, h5, h6]
  · intro args hl h
    rcases args with _ | ⟨a0, args⟩
    · cases hl
    rcases args with _ | ⟨a1, args⟩
    · cases hl
    rcases args with _ | ⟨a2, args⟩
    · cases hl
    rcases args with _ | ⟨a3, args⟩
    · cases hl
    rcases args with _ | ⟨a4, args⟩
    · cases hl
    rcases args with _ | ⟨a5, args⟩
    · cases hl
    rcases args with _ | ⟨a6, args⟩
    · cases hl
    rcases args with _ | ⟨_, args⟩
    swap
    · simp [spec_sumprod_slice_async] at hl
    simp only [spec_sumprod_slice_async, Fit, List.forall₂_cons, List.forall₂_nil_left_iff, Role.Fits, List.mem_cons, List.not_mem_nil, or_false, forall_eq_or_imp, forall_eq, and_true] at h
    simp only [op_sumprod_slice_async, py_sumprod_slice_async, List.getD_cons_zero, List.getD_cons_succ]
    repeat' (with_reducible refine ite_rejects (fun _ => ?_) (fun _ => ?_))
    all_goals first
      | rfl
      | refine Binding.call_rejects ?_
        simp only [core_sumprod_slice_async_fp32, core_sumprod_slice_async_fp64, List.mem_cons, List.not_mem_nil, or_false, forall_eq, acceptAll, Param.accepts, and_true]
        first | exact h.1 | exact h.2 | simpa [pyInt] using h.1 | simpa [pyInt] using h.2 | tauto

theorem obeys_sumprod_fiber_async : Obeys op_sumprod_fiber_async spec_sumprod_fiber_async := by
  refine obeys_of rfl rfl (by decide) ?_ ?_
  · intro args d hd H0
    rw [spec_sumprod_fiber_async, Fit] at H0
    dsimp only at H0
    obtain ⟨a0, _, h0, H1, rfl⟩ := List.forall₂_cons_left_iff.1 H0
    obtain ⟨a1, _, h1, H2, rfl⟩ := List.forall₂_cons_left_iff.1 H1
    obtain ⟨a2, _, h2, H3, rfl⟩ := List.forall₂_cons_left_iff.1 H2
    obtain ⟨a3, _, h3, H4, rfl⟩ := List.forall₂_cons_left_iff.1 H3
    obtain ⟨a4, _, h4, H5, rfl⟩ := List.forall₂_cons_left_iff.1 H4
    obtain ⟨a5, _, h5, H6, rfl⟩ := List.forall₂_cons_left_iff.1 H5
    obtain ⟨a6, _, h6, H7, rfl⟩ := List.forall₂_cons_left_iff.1 H6
    cases List.forall₂_nil_left_iff.1 H7
    simp only [spec_sumprod_fiber_async, List.mem_cons, List.not_mem_nil, or_false] at hd
    rcases hd with rfl | rfl
    all_goals
      simp only [Role.Fits] at h0 h1 h2 h3 h4 h5 h6
      simp [op_sumprod_fiber_async, py_sumprod_fiber_async, spec_sumprod_fiber_async, Binding.call, core_sumprod_fiber_async_fp32, core_sumprod_fiber_async_fp64, acceptAll, Param.accepts, h0, h1, h2, h3, h4, h5, h6]
  · intro args hl h
    rcases args with _ | ⟨a0, args⟩
    · cases hl
    rcases args with _ | ⟨a1, args⟩
    · cases hl
    rcases args with _ | ⟨a2, args⟩
    · cases hl
    rcases args with _ | ⟨a3, args⟩
    · cases hl
    rcases args with _ | ⟨a4, args⟩
    · cases hl
    rcases args with _ | ⟨a5, args⟩
    · cases hl
    rcases args with _ | ⟨a6, args⟩
    · cases hl
    rcases args with _ | ⟨_, args⟩
    swap
    · simp [spec_sumprod_fiber_async] at hl
    simp only [spec_sumprod_fiber_async, Fit, List.forall₂_cons, List.forall₂_nil_left_iff, Role.Fits, List.mem_cons, List.not_mem_nil, or_false, forall_eq_or_imp, forall_eq, and_true] at h
    simp only [op_sumprod_fiber_async, py_sumprod_fiber_async, List.getD_cons_zero, List.getD_cons_succ]
    repeat' (with_reducible refine ite_rejects (fun _ => ?_) (fun _ => ?_))
    all_goals first
      | rfl
      | refine Binding.call_rejects ?_
        simp only [core_sumprod_fiber_async_fp32, core_sumprod_fiber_async_fp64, List.mem_cons, List.not_mem_nil, or_false, forall_eq, acceptAll, Param.accepts, and_true]
        first | exact h.1 | exact h.2 | simpa [pyInt] using h.1 | simpa [pyInt] using h.2 | tauto

theorem obeys_logsumexp_async : Obeys op_logsumexp_async spec_logsumexp_async := by
  refine obeys_of rfl rfl (by decide) ?_ ?_
  · intro args d hd H0
    rw [spec_logsumexp_async, Fit] at H0
    dsimp only at H0
    obtain ⟨a0, _, h0, H1, rfl⟩ := List.forall₂_cons_left_iff.1 H0
    obtain ⟨a1, _, h1, H2, rfl⟩ := List.forall₂_cons_left_iff.1 H1
    cases List.forall₂_nil_left_iff.1 H2
    simp only [spec_logsumexp_async, List.mem_cons, List.not_mem_nil, or_false] at hd
    rcases hd with rfl | rfl
    all_goals
      simp only [Role.Fits] at h0 h1
      simp [op_logsumexp_async, py_logsumexp_async, spec_logsumexp_async, Binding.call, core_logsumexp_async_fp32, core_logsumexp_async_fp64, acceptAll, Param.accepts, h0, h1]
  · intro args hl h
    rcases args with _ | ⟨a0, args⟩
    · cases hl
    rcases args with _ | ⟨a1, args⟩
    · cases hl
    rcases args with _ | ⟨_, args⟩
    swap
    · simp [spec_logsumexp_async] at hl
    simp only [spec_logsumexp_async, Fit, List.forall₂_cons, List.forall₂_nil_left_iff, Role.Fits, List.mem_cons, List.not_mem_nil, or_false, forall_eq_or_imp, forall_eq, and_true] at h
    simp only [op_logsumexp_async, py_logsumexp_async, List.getD_cons_zero, List.getD_cons_succ]
    repeat' (with_reducible refine ite_rejects (fun _ => ?_) (fun _ => ?_))
    all_goals first
      | rfl
      | refine Binding.call_rejects ?_
        simp only [core_logsumexp_async_fp32, core_logsumexp_async_fp64, List.mem_cons, List.not_mem_nil, or_false, forall_eq, acceptAll, Param.accepts, and_true]
        first | exact h.1 | exact h.2 | simpa [pyInt] using h.1 | simpa [pyInt] using h.2 | tauto

theorem obeys_total_sum_accum_async : Obeys op_total_sum_accum_async spec_total_sum_accum_async := by
  refine obeys_of rfl rfl (by decide) ?_ ?_
  · intro args d hd H0
    rw [spec_total_sum_accum_async, Fit] at H0
    dsimp only at H0
    obtain ⟨a0, _, h0, H1, rfl⟩ := List.forall₂_cons_left_iff.1 H0
    obtain ⟨a1, _, h1, H2, rfl⟩ := List.forall₂_cons_left_iff.1 H1
    obtain ⟨a2, _, h2, H3, rfl⟩ := List.forall₂_cons_left_iff.1 H2
    obtain ⟨a3, _, h3, H4, rfl⟩ := List.forall₂_cons_left_iff.1 H3
    obtain ⟨a4, _, h4, H5, rfl⟩ := List.forall₂_cons_left_iff.1 H4
    cases List.forall₂_nil_left_iff.1 H5
    simp only [spec_total_sum_accum_async, List.mem_cons, List.not_mem_nil, or_false] at hd
    rcases hd with rfl | rfl
    all_goals
      simp only [Role.Fits] at h0 h1 h2 h3 h4
      simp [op_total_sum_accum_async, py_total_sum_accum_async, spec_total_sum_accum_async, Binding.call, core_total_sum_accum_async_fp32, core_total_sum_accum_async_fp64, acceptAll, Param.accepts, h0, h1, h2, h3, h4]
  · intro args hl h
    rcases args with _ | ⟨a0, args⟩
    · cases hl
    rcases args with _ | ⟨a1, args⟩
    · cases hl
    rcases args with _ | ⟨a2, args⟩
    · cases hl
    rcases args with _ | ⟨a3, args⟩
    · cases hl
    rcases args with _ | ⟨a4, args⟩
    · cases hl
    rcases args with _ | ⟨_, args⟩
    swap
    · simp [spec_total_sum_accum_async] at hl
    simp only [spec_total_sum_accum_async, Fit, List.forall₂_cons, List.forall₂_nil_left_iff, Role.Fits, List.mem_cons, List.not_mem_nil, or_false, forall_eq_or_imp, forall_eq, and_true] at h
    simp only [op_total_sum_accum_async, py_total_sum_accum_async, List.getD_cons_zero, List.getD_cons_succ]
    repeat' (with_reducible refine ite_rejects (fun _ => ?_) (fun _ => ?_))
    all_goals first
      | rfl
      | refine Binding.call_rejects ?_
        simp only [core_total_sum_accum_async_fp32, core_total_sum_accum_async_fp64, List.mem_cons, List.not_mem_nil, or_false, forall_eq, acceptAll, Param.accepts, and_true]
        first | exact h.1 | exact h.2 | simpa [pyInt] using h.1 | simpa [pyInt] using h.2 | tauto

theorem obeys_subtract_indexed_outputs_async : Obeys op_subtract_indexed_outputs_async spec_subtract_indexed_outputs_async := by
  refine obeys_of rfl rfl (by decide) ?_ ?_
  · intro args d hd H0
    rw [spec_subtract_indexed_outputs_async, Fit] at H0
    dsimp only at H0
    obtain ⟨a0, _, h0, H1, rfl⟩ := List.forall₂_cons_left_iff.1 H0
    obtain ⟨a1, _, h1, H2, rfl⟩ := List.forall₂_cons_left_iff.1 H1
    obtain ⟨a2, _, h2, H3, rfl⟩ := List.forall₂_cons_left_iff.1 H2
    cases List.forall₂_nil_left_iff.1 H3
    simp only [spec_subtract_indexed_outputs_async, List.mem_cons, List.not_mem_nil, or_false] at hd
    rcases hd with rfl | rfl
    all_goals
      simp only [Role.Fits] at h0 h1 h2
      simp [op_subtract_indexed_outputs_async, py_subtract_indexed_outputs_async, spec_subtract_indexed_outputs_async, Binding.call, core_subtract_indexed_outputs_async_fp32, core_subtract_indexed_outputs_async_fp64, acceptAll, Param.accepts, h0, h1, h2]
  · intro args hl h
    rcases args with _ | ⟨a0, args⟩
    · cases hl
    rcases args with _ | ⟨a1, args⟩
    · cases hl
    rcases args with _ | ⟨a2, args⟩
    · cases hl
    rcases args with _ | ⟨_, args⟩
    swap
    · simp [spec_subtract_indexed_outputs_async] at hl
    simp only [spec_subtract_indexed_outputs_async, Fit, List.forall₂_cons, List.forall₂_nil_left_iff, Role.Fits, List.mem_cons, List.not_mem_nil, or_false, forall_eq_or_imp, forall_eq, and_true] at h
    simp only [op_subtract_indexed_outputs_async, py_subtract_indexed_outputs_async, List.getD_cons_zero, List.getD_cons_succ]
    repeat' (with_reducible refine ite_rejects (fun _ => ?_) (fun _ => ?_))
    all_goals first
      | rfl
      | refine Binding.call_rejects ?_
        simp only [core_subtract_indexed_outputs_async_fp32, core_subtract_indexed_outputs_async_fp64, List.mem_cons, List.not_mem_nil, or_false, forall_eq, acceptAll, Param.accepts, and_true]
        first | exact h.1 | exact h.2 | simpa [pyInt] using h.1 | simpa [pyInt] using h.2 | tauto

theorem obeys_scal_async : Obeys op_scal_async spec_scal_async := by
  refine obeys_of rfl rfl (by decide) ?_ ?_
  · intro args d hd H0
    rw [spec_scal_async, Fit] at H0
    dsimp only at H0
    obtain ⟨a0, _, h0, H1, rfl⟩ := List.forall₂_cons_left_iff.1 H0
    obtain ⟨a1, _, h1, H2, rfl⟩ := List.forall₂_cons_left_iff.1 H1
    obtain ⟨a2, _, h2, H3, rfl⟩ := List.forall₂_cons_left_iff.1 H2
    cases List.forall₂_nil_left_iff.1 H3
    simp only [spec_scal_async, List.mem_cons, List.not_mem_nil, or_false] at hd
    rcases hd with rfl | rfl
    all_goals
      simp only [Role.Fits] at h0 h1 h2
      simp [op_scal_async, py_scal_async, spec_scal_async, Binding.call, core_scal_async_fp32, core_scal_async_fp64, acceptAll, Param.accepts, h0, h1, h2]
  · intro args hl h
    rcases args with _ | ⟨a0, args⟩
    · cases hl
    rcases args with _ | ⟨a1, args⟩
    · cases hl
    rcases args with _ | ⟨a2, args⟩
    · cases hl
    rcases args with _ | ⟨_, args⟩
    swap
    · simp [spec_scal_async] at hl
    simp only [spec_scal_async, Fit, List.forall₂_cons, List.forall₂_nil_left_iff, Role.Fits, List.mem_cons, List.not_mem_nil, or_false, forall_eq_or_imp, forall_eq, and_true] at h
    simp only [op_scal_async, py_scal_async, List.getD_cons_zero, List.getD_cons_succ]
    repeat' (with_reducible refine ite_rejects (fun _ => ?_) (fun _ => ?_))
    all_goals first
      | rfl
      | refine Binding.call_rejects ?_
        simp only [core_scal_async_fp32, core_scal_async_fp64, List.mem_cons, List.not_mem_nil, or_false, forall_eq, acceptAll, Param.accepts, and_true]
        first | exact h.1 | exact h.2 | simpa [pyInt] using h.1 | simpa [pyInt] using h.2 | tauto

theorem obeys_scal_inplace_async : Obeys op_scal_inplace_async spec_scal_inplace_async := by
  refine obeys_of rfl rfl (by decide) ?_ ?_
  · intro args d hd H0
    rw [spec_scal_inplace_async, Fit] at H0
    dsimp only at H0
    obtain ⟨a0, _, h0, H1, rfl⟩ := List.forall₂_cons_left_iff.1 H0
    obtain ⟨a1, _, h1, H2, rfl⟩ := List.forall₂_cons_left_iff.1 H1
    cases List.forall₂_nil_left_iff.1 H2
    simp only [spec_scal_inplace_async, List.mem_cons, List.not_mem_nil, or_false] at hd
    rcases hd with rfl | rfl
    all_goals
      simp only [Role.Fits] at h0 h1
      simp [op_scal_inplace_async, py_scal_inplace_async, spec_scal_inplace_async, Binding.call, core_scal_inplace_async_fp32, core_scal_inplace_async_fp64, acceptAll, Param.accepts, h0, h1]
  · intro args hl h
    rcases args with _ | ⟨a0, args⟩
    · cases hl
    rcases args with _ | ⟨a1, args⟩
    · cases hl
    rcases args with _ | ⟨_, args⟩
    swap
    · simp [spec_scal_inplace_async] at hl
    simp only [spec_scal_inplace_async, Fit, List.forall₂_cons, List.forall₂_nil_left_iff, Role.Fits, List.mem_cons, List.not_mem_nil, or_false, forall_eq_or_imp, forall_eq, and_true] at h
    simp only [op_scal_inplace_async, py_scal_inplace_async, List.getD_cons_zero, List.getD_cons_succ]
    repeat' (with_reducible refine ite_rejects (fun _ => ?_) (fun _ => ?_))
    all_goals first
      | rfl
      | refine Binding.call_rejects ?_
        simp only [core_scal_inplace_async_fp32, core_scal_inplace_async_fp64, List.mem_cons, List.not_mem_nil, or_false, forall_eq, acceptAll, Param.accepts, and_true]
        first | exact h.1 | exact h.2 | simpa [pyInt] using h.1 | simpa [pyInt] using h.2 | tauto

theorem obeys_mask_scalar_async : Obeys op_mask_scalar_async spec_mask_scalar_async := by
  refine obeys_of rfl rfl (by decide) ?_ ?_
  · intro args d hd H0
    rw [spec_mask_scalar_async, Fit] at H0
    dsimp only at H0
    obtain ⟨a0, _, h0, H1, rfl⟩ := List.forall₂_cons_left_iff.1 H0
    obtain ⟨a1, _, h1, H2, rfl⟩ := List.forall₂_cons_left_iff.1 H1
    obtain ⟨a2, _, h2, H3, rfl⟩ := List.forall₂_cons_left_iff.1 H2
    obtain ⟨a3, _, h3, H4, rfl⟩ := List.forall₂_cons_left_iff.1 H3
    cases List.forall₂_nil_left_iff.1 H4
    simp only [spec_mask_scalar_async, List.mem_cons, List.not_mem_nil, or_false] at hd
    rcases hd with rfl | rfl
    all_goals
      simp only [Role.Fits] at h0 h1 h2 h3
      simp [op_mask_scalar_async, py_mask_scalar_async, spec_mask_scalar_async, Binding.call, core_mask_scalar_async_fp32, core_mask_scalar_async_fp64, acceptAll, Param.accepts, h0, h1, h2, h3]
  · intro args hl h
    rcases args with _ | ⟨a0, args⟩
    · cases hl
    rcases args with _ | ⟨a1, args⟩
    · cases hl
    rcases args with _ | ⟨a2, args⟩
    · cases hl
    rcases args with _ | ⟨a3, args⟩
    · cases hl
    rcases args with _ | ⟨_, args⟩
    swap
    · simp [spec_mask_scalar_async] at hl
    simp only [spec_mask_scalar_async, Fit, List.forall₂_cons, List.forall₂_nil_left_iff, Role.Fits, List.mem_cons, List.not_mem_nil, or_false, forall_eq_or_imp, forall_eq, and_true] at h
    simp only [op_mask_scalar_async, py_mask_scalar_async, List.getD_cons_zero, List.getD_cons_succ]
    repeat' (with_reducible refine ite_rejects (fun _ => ?_) (fun _ => ?_))
    all_goals first
      | rfl
      | refine Binding.call_rejects ?_
        simp only [core_mask_scalar_async_fp32, core_mask_scalar_async_fp64, List.mem_cons, List.not_mem_nil, or_false, forall_eq, acceptAll, Param.accepts, and_true]
        first | exact h.1 | exact h.2 | simpa [pyInt] using h.1 | simpa [pyInt] using h.2 | tauto

theorem obeys_embedding_async : Obeys op_embedding_async spec_embedding_async := by
  refine obeys_of rfl rfl (by decide) ?_ ?_
  · intro args d hd H0
    rw [spec_embedding_async, Fit] at H0
    dsimp only at H0
    obtain ⟨a0, _, h0, H1, rfl⟩ := List.forall₂_cons_left_iff.1 H0
    obtain ⟨a1, _, h1, H2, rfl⟩ := List.forall₂_cons_left_iff.1 H1
    obtain ⟨a2, _, h2, H3, rfl⟩ := List.forall₂_cons_left_iff.1 H2
    obtain ⟨a3, _, h3, H4, rfl⟩ := List.forall₂_cons_left_iff.1 H3
    cases List.forall₂_nil_left_iff.1 H4
    simp only [spec_embedding_async, List.mem_cons, List.not_mem_nil, or_false] at hd
    rcases hd with rfl | rfl
    all_goals
      simp only [Role.Fits] at h0 h1 h2 h3
      simp [op_embedding_async, py_embedding_async, spec_embedding_async, Binding.call, core_embedding_async_fp32, core_embedding_async_fp64, acceptAll, Param.accepts, h0, h1, h2, h3]
  · intro args hl h
    rcases args with _ | ⟨a0, args⟩
    · cases hl
    rcases args with _ | ⟨a1, args⟩
    · cases hl
    rcases args with _ | ⟨a2, args⟩
    · cases hl
    rcases args with _ | ⟨a3, args⟩
    · cases hl
    rcases args with _ | ⟨_, args⟩
    swap
    · simp [spec_embedding_async] at hl
    simp only [spec_embedding_async, Fit, List.forall₂_cons, List.forall₂_nil_left_iff, Role.Fits, List.mem_cons, List.not_mem_nil, or_false, forall_eq_or_imp, forall_eq, and_true] at h
    simp only [op_embedding_async, py_embedding_async, List.getD_cons_zero, List.getD_cons_succ]
    repeat' (with_reducible refine ite_rejects (fun _ => ?_) (fun _ => ?_))
    all_goals first
      | rfl
      | refine Binding.call_rejects ?_
        simp only [core_embedding_async_fp32, core_embedding_async_fp64, List.mem_cons, List.not_mem_nil, or_false, forall_eq, acceptAll, Param.accepts, and_true]
        first | exact h.1 | exact h.2 | simpa [pyInt] using h.1 | simpa [pyInt] using h.2 | tauto

theorem obeys_embedding_backward_async : Obeys op_embedding_backward_async spec_embedding_backward_async := by
  refine obeys_of rfl rfl (by decide) ?_ ?_
  · intro args d hd H0
    rw [spec_embedding_backward_async, Fit] at H0
    dsimp only at H0
    obtain ⟨a0, _, h0, H1, rfl⟩ := List.forall₂_cons_left_iff.1 H0
    obtain ⟨a1, _, h1, H2, rfl⟩ := List.forall₂_cons_left_iff.1 H1
    obtain ⟨a2, _, h2, H3, rfl⟩ := List.forall₂_cons_left_iff.1 H2
    obtain ⟨a3, _, h3, H4, rfl⟩ := List.forall₂_cons_left_iff.1 H3
    obtain ⟨a4, _, h4, H5, rfl⟩ := List.forall₂_cons_left_iff.1 H4
    cases List.forall₂_nil_left_iff.1 H5
    simp only [spec_embedding_backward_async, List.mem_cons, List.not_mem_nil, or_false] at hd
    rcases hd with rfl | rfl
    all_goals
      simp only [Role.Fits] at h0 h1 h2 h3 h4
      simp [op_embedding_backward_async, py_embedding_backward_async, spec_embedding_backward_async, Binding.call, core_embedding_backward_async_fp32, core_embedding_backward_async_fp64, acceptAll, Param.accepts, h0, h1, h2, h3, h4]
  · intro args hl h
    rcases args with _ | ⟨a0, args⟩
    · cases hl
    rcases args with _ | ⟨a1, args⟩
    · cases hl
    rcases args with _ | ⟨a2, args⟩
    · cases hl
    rcases args with _ | ⟨a3, args⟩
    · cases hl
    rcases args with _ | ⟨a4, args⟩
    · cases hl
    rcases args with _ | ⟨_, args⟩
    swap
    · simp [spec_embedding_backward_async] at hl
    simp only [spec_embedding_backward_async, Fit, List.forall₂_cons, List.forall₂_nil_left_iff, Role.Fits, List.mem_cons, List.not_mem_nil, or_false, forall_eq_or_imp, forall_eq, and_true] at h
    simp only [op_embedding_backward_async, py_embedding_backward_async, List.getD_cons_zero, List.getD_cons_succ]
    repeat' (with_reducible refine ite_rejects (fun _ => ?_) (fun _ => ?_))
    all_goals first
      | rfl
      | refine Binding.call_rejects ?_
        simp only [core_embedding_backward_async_fp32, core_embedding_backward_async_fp64, List.mem_cons, List.not_mem_nil, or_false, forall_eq, acceptAll, Param.accepts, and_true]
        first | exact h.1 | exact h.2 | simpa [pyInt] using h.1 | simpa [pyInt] using h.2 | tauto

theorem obeys_hypot_async : Obeys op_hypot_async spec_hypot_async := by
  refine obeys_of rfl rfl (by decide) ?_ ?_
  · intro args d hd H0
    rw [spec_hypot_async, Fit] at H0
    dsimp only at H0
    obtain ⟨a0, _, h0, H1, rfl⟩ := List.forall₂_cons_left_iff.1 H0
    obtain ⟨a1, _, h1, H2, rfl⟩ := List.forall₂_cons_left_iff.1 H1
    obtain ⟨a2, _, h2, H3, rfl⟩ := List.forall₂_cons_left_iff.1 H2
    obtain ⟨a3, _, h3, H4, rfl⟩ := List.forall₂_cons_left_iff.1 H3
    cases List.forall₂_nil_left_iff.1 H4
    simp only [spec_hypot_async, List.mem_cons, List.not_mem_nil, or_false] at hd
    rcases hd with rfl | rfl
    all_goals
      simp only [Role.Fits] at h0 h1 h2 h3
      simp [op_hypot_async, py_hypot_async, spec_hypot_async, Binding.call, core_hypot_async_fp32, core_hypot_async_fp64, acceptAll, Param.accepts, h0, h1, h2, h3]
  · intro args hl h
    rcases args with _ | ⟨a0, args⟩
    · cases hl
    rcases args with _ | ⟨a1, args⟩
    · cases hl
    rcases args with _ | ⟨a2, args⟩
    · cases hl
    rcases args with _ | ⟨a3, args⟩
    · cases hl
    rcases args with _ | ⟨_, args⟩
    swap
    · simp [spec_hypot_async] at hl
    simp only [spec_hypot_async, Fit, List.forall₂_cons, List.forall₂_nil_left_iff, Role.Fits, List.mem_cons, List.not_mem_nil, or_false, forall_eq_or_imp, forall_eq, and_true] at h
    simp only [op_hypot_async, py_hypot_async, List.getD_cons_zero, List.getD_cons_succ]
    repeat' (with_reducible refine ite_rejects (fun _ => ?_) (fun _ => ?_))
    all_goals first
      | rfl
      | refine Binding.call_rejects ?_
        simp only [core_hypot_async_fp32, core_hypot_async_fp64, List.mem_cons, List.not_mem_nil, or_false, forall_eq, acceptAll, Param.accepts, and_true]
        first | exact h.1 | exact h.2 | simpa [pyInt] using h.1 | simpa [pyInt] using h.2 | tauto

theorem obeys_hypot_scalar_inverse_async : Obeys op_hypot_scalar_inverse_async spec_hypot_scalar_inverse_async := by
  refine obeys_of rfl rfl (by decide) ?_ ?_
  · intro args d hd H0
    rw [spec_hypot_scalar_inverse_async, Fit] at H0
    dsimp only at H0
    obtain ⟨a0, _, h0, H1, rfl⟩ := List.forall₂_cons_left_iff.1 H0
    obtain ⟨a1, _, h1, H2, rfl⟩ := List.forall₂_cons_left_iff.1 H1
    obtain ⟨a2, _, h2, H3, rfl⟩ := List.forall₂_cons_left_iff.1 H2
    cases List.forall₂_nil_left_iff.1 H3
    simp only [spec_hypot_scalar_inverse_async, List.mem_cons, List.not_mem_nil, or_false] at hd
    rcases hd with rfl | rfl
    all_goals
      simp only [Role.Fits] at h0 h1 h2
      simp [op_hypot_scalar_inverse_async, py_hypot_scalar_inverse_async, spec_hypot_scalar_inverse_async, Binding.call, core_hypot_scalar_inverse_async_fp32, core_hypot_scalar_inverse_async_fp64, acceptAll, Param.accepts, h0, h1, h2]
  · intro args hl h
    rcases args with _ | ⟨a0, args⟩
    · cases hl
    rcases args with _ | ⟨a1, args⟩
    · cases hl
    rcases args with _ | ⟨a2, args⟩
    · cases hl
    rcases args with _ | ⟨_, args⟩
    swap
    · simp [spec_hypot_scalar_inverse_async] at hl
    simp only [spec_hypot_scalar_inverse_async, Fit, List.forall₂_cons, List.forall₂_nil_left_iff, Role.Fits, List.mem_cons, List.not_mem_nil, or_false, forall_eq_or_imp, forall_eq, and_true] at h
    simp only [op_hypot_scalar_inverse_async, py_hypot_scalar_inverse_async, List.getD_cons_zero, List.getD_cons_succ]
    repeat' (with_reducible refine ite_rejects (fun _ => ?_) (fun _ => ?_))
    all_goals first
      | rfl
      | refine Binding.call_rejects ?_
        simp only [core_hypot_scalar_inverse_async_fp32, core_hypot_scalar_inverse_async_fp64, List.mem_cons, List.not_mem_nil, or_false, forall_eq, acceptAll, Param.accepts, and_true]
        first | exact h.1 | exact h.2 | simpa [pyInt] using h.1 | simpa [pyInt] using h.2 | tauto

theorem obeys_fused_adam_step : Obeys op_fused_adam_step spec_fused_adam_step := by
  refine obeys_of rfl rfl (by decide) ?_ ?_
  · intro args d hd H0
    rw [spec_fused_adam_step, Fit] at H0
    dsimp only at H0
    obtain ⟨a0, _, h0, H1, rfl⟩ := List.forall₂_cons_left_iff.1 H0
    obtain ⟨a1, _, h1, H2, rfl⟩ := List.forall₂_cons_left_iff.1 H1
    obtain ⟨a2, _, h2, H3, rfl⟩ := List.forall₂_cons_left_iff.1 H2
    obtain ⟨a3, _, h3, H4, rfl⟩ := List.forall₂_cons_left_iff.1 H3
    obtain ⟨a4, _, h4, H5, rfl⟩ := List.forall₂_cons_left_iff.1 H4
    obtain ⟨a5, _, h5, H6, rfl⟩ := List.forall₂_cons_left_iff.1 H5
    obtain ⟨a6, _, h6, H7, rfl⟩ := List.forall₂_cons_left_iff.1 H6
    obtain ⟨a7, _, h7, H8, rfl⟩ := List.forall₂_cons_left_iff.1 H7
    obtain ⟨a8, _, h8, H9, rfl⟩ := List.forall₂_cons_left_iff.1 H8
    obtain ⟨a9, _, h9, H10, rfl⟩ := List.forall₂_cons_left_iff.1 H9
    cases List.forall₂_nil_left_iff.1 H10
    simp only [spec_fused_adam_step, List.mem_cons, List.not_mem_nil, or_false] at hd
    rcases hd with rfl | rfl
    all_goals
      simp only [Role.Fits] at h0 h1 h2 h3 h4 h5 h6 h7 h8 h9
      simp [op_fused_adam_step, py_fused_adam_step, spec_fused_adam_step, Binding.call, core_adam_step_async_fp32, core_adam_step_async_fp64, acceptAll, Param.accepts, h0, h1, h2, h3, h4, h5, h6, h7, h8, h9, passAdam]
  · intro args hl h
    rcases args with _ | ⟨a0, args⟩
    · cases hl
    rcases args with _ | ⟨a1, args⟩
    · cases hl
    rcases args with _ | ⟨a2, args⟩
    · cases hl
    rcases args with _ | ⟨a3, args⟩
    · cases hl
    rcases args with _ | ⟨a4, args⟩
    · cases hl
    rcases args with _ | ⟨a5, args⟩
    · cases hl
    rcases args with _ | ⟨a6, args⟩
    · cases hl
    rcases args with _ | ⟨a7, args⟩
    · cases hl
    rcases args with _ | ⟨a8, args⟩
    · cases hl
    rcases args with _ | ⟨a9, args⟩
    · cases hl
    rcases args with _ | ⟨_, args⟩
    swap
    · simp [spec_fused_adam_step] at hl
    simp only [spec_fused_adam_step, Fit, List.forall₂_cons, List.forall₂_nil_left_iff, Role.Fits, List.mem_cons, List.not_mem_nil, or_false, forall_eq_or_imp, forall_eq, and_true] at h
    simp only [op_fused_adam_step, py_fused_adam_step, List.getD_cons_zero, List.getD_cons_succ]
    repeat' (with_reducible refine ite_rejects (fun _ => ?_) (fun _ => ?_))
    all_goals first
      | rfl
      | refine Binding.call_rejects ?_
        simp only [core_adam_step_async_fp32, core_adam_step_async_fp64, List.mem_cons, List.not_mem_nil, or_false, forall_eq, acceptAll, Param.accepts, and_true]
        rintro ⟨b9, b6, b7, b5, b4, b8, b1, b2, b3, b0⟩
        first | exact h.1 ⟨b0, b1, b2, b3, b4, b5, b6, b7, b8, b9⟩ | exact h.2 ⟨b0, b1, b2, b3, b4, b5, b6, b7, b8, b9⟩

theorem obeys_fused_adamw_step : Obeys op_fused_adamw_step spec_fused_adamw_step := by
  refine obeys_of rfl rfl (by decide) ?_ ?_
  · intro args d hd H0
    rw [spec_fused_adamw_step, Fit] at H0
    dsimp only at H0
    obtain ⟨a0, _, h0, H1, rfl⟩ := List.forall₂_cons_left_iff.1 H0
    obtain ⟨a1, _, h1, H2, rfl⟩ := List.forall₂_cons_left_iff.1 H1
    obtain ⟨a2, _, h2, H3, rfl⟩ := List.forall₂_cons_left_iff.1 H2
    obtain ⟨a3, _, h3, H4, rfl⟩ := List.forall₂_cons_left_iff.1 H3
    obtain ⟨a4, _, h4, H5, rfl⟩ := List.forall₂_cons_left_iff.1 H4
    obtain ⟨a5, _, h5, H6, rfl⟩ := List.forall₂_cons_left_iff.1 H5
    obtain ⟨a6, _, h6, H7, rfl⟩ := List.forall₂_cons_left_iff.1 H6
    obtain ⟨a7, _, h7, H8, rfl⟩ := List.forall₂_cons_left_iff.1 H7
    obtain ⟨a8, _, h8, H9, rfl⟩ := List.forall₂_cons_left_iff.1 H8
    obtain ⟨a9, _, h9, H10, rfl⟩ := List.forall₂_cons_left_iff.1 H9
    cases List.forall₂_nil_left_iff.1 H10
    simp only [spec_fused_adamw_step, List.mem_cons, List.not_mem_nil, or_false] at hd
    rcases hd with rfl | rfl
    all_goals
      simp only [Role.Fits] at h0 h1 h2 h3 h4 h5 h6 h7 h8 h9
      simp [op_fused_adamw_step, py_fused_adamw_step, spec_fused_adamw_step, Binding.call, core_adamw_step_async_fp32, core_adamw_step_async_fp64, acceptAll, Param.accepts, h0, h1, h2, h3, h4, h5, h6, h7, h8, h9, passAdam]
  · intro args hl h
    rcases args with _ | ⟨a0, args⟩
    · cases hl
    rcases args with _ | ⟨a1, args⟩
    · cases hl
    rcases args with _ | ⟨a2, args⟩
    · cases hl
    rcases args with _ | ⟨a3, args⟩
    · cases hl
    rcases args with _ | ⟨a4, args⟩
    · cases hl
    rcases args with _ | ⟨a5, args⟩
    · cases hl
    rcases args with _ | ⟨a6, args⟩
    · cases hl
    rcases args with _ | ⟨a7, args⟩
    · cases hl
    rcases args with _ | ⟨a8, args⟩
    · cases hl
    rcases args with _ | ⟨a9, args⟩
    · cases hl
    rcases args with _ | ⟨_, args⟩
    swap
    · simp [spec_fused_adamw_step] at hl
    simp only [spec_fused_adamw_step, Fit, List.forall₂_cons, List.forall₂_nil_left_iff, Role.Fits, List.mem_cons, List.not_mem_nil, or_false, forall_eq_or_imp, forall_eq, and_true] at h
    simp only [op_fused_adamw_step, py_fused_adamw_step, List.getD_cons_zero, List.getD_cons_succ]
    repeat' (with_reducible refine ite_rejects (fun _ => ?_) (fun _ => ?_))
    all_goals first
      | rfl
      | refine Binding.call_rejects ?_
        simp only [core_adamw_step_async_fp32, core_adamw_step_async_fp64, List.mem_cons, List.not_mem_nil, or_false, forall_eq, acceptAll, Param.accepts, and_true]
        rintro ⟨b9, b6, b7, b5, b4, b8, b1, b2, b3, b0⟩
        first | exact h.1 ⟨b0, b1, b2, b3, b4, b5, b6, b7, b8, b9⟩ | exact h.2 ⟨b0, b1, b2, b3, b4, b5, b6, b7, b8, b9⟩

theorem obeys_transpose_async : Obeys op_transpose_async spec_transpose_async := by
  refine obeys_of rfl rfl (by decide) ?_ ?_
  · intro args d hd H0
    rw [spec_transpose_async, Fit] at H0
    dsimp only at H0
    obtain ⟨a0, _, h0, H1, rfl⟩ := List.forall₂_cons_left_iff.1 H0
    obtain ⟨a1, _, h1, H2, rfl⟩ := List.forall₂_cons_left_iff.1 H1
    obtain ⟨a2, _, h2, H3, rfl⟩ := List.forall₂_cons_left_iff.1 H2
    obtain ⟨a3, _, h3, H4, rfl⟩ := List.forall₂_cons_left_iff.1 H3
    cases List.forall₂_nil_left_iff.1 H4
    simp only [spec_transpose_async, List.mem_cons, List.not_mem_nil, or_false] at hd
    rcases hd with rfl | rfl
    all_goals
      simp only [Role.Fits] at h0 h1 h2 h3
      simp [op_transpose_async, py_transpose_async, spec_transpose_async, Binding.call, core_transpose_async_fp32, core_transpose_async_fp64, acceptAll, Param.accepts, h0, h1, h2, h3]
  · intro args hl h
    rcases args with _ | ⟨a0, args⟩
    · cases hl
    rcases args with _ | ⟨a1, args⟩
    · cases hl
    rcases args with _ | ⟨a2, args⟩
    · cases hl
    rcases args with _ | ⟨a3, args⟩
    · cases hl
    rcases args with _ | ⟨_, args⟩
    swap
    · simp [spec_transpose_async] at hl
    simp only [spec_transpose_async, Fit, List.forall₂_cons, List.forall₂_nil_left_iff, Role.Fits, List.mem_cons, List.not_mem_nil, or_false, forall_eq_or_imp, forall_eq, and_true] at h
    simp only [op_transpose_async, py_transpose_async, List.getD_cons_zero, List.getD_cons_succ]
    repeat' (with_reducible refine ite_rejects (fun _ => ?_) (fun _ => ?_))
    all_goals first
      | rfl
      | refine Binding.call_rejects ?_
        simp only [core_transpose_async_fp32, core_transpose_async_fp64, List.mem_cons, List.not_mem_nil, or_false, forall_eq, acceptAll, Param.accepts, and_true]
        first | exact h.1 | exact h.2 | simpa [pyInt] using h.1 | simpa [pyInt] using h.2 | tauto

/-- All functions, in the order of the file. -/
theorem obeys_all : List.Forall₂ (fun (f : PyOp) (sp : OpSpec) => f.name = sp.name ∧ (sp.name ≠ "scatter_async" → Obeys f sp)) pyOps opSpecs := by
  unfold pyOps opSpecs
  refine .cons ⟨rfl, fun h => obeys_gemm_async⟩ ?_
  refine .cons ⟨rfl, fun h => obeys_gemm_ex_async⟩ ?_
  refine .cons ⟨rfl, fun h => obeys_relu_async⟩ ?_
  refine .cons ⟨rfl, fun h => obeys_relu_forward_async⟩ ?_
  refine .cons ⟨rfl, fun h => obeys_relu_backward_async⟩ ?_
  refine .cons ⟨rfl, fun h => obeys_drelu_async⟩ ?_
  refine .cons ⟨rfl, fun h => obeys_gelu_async⟩ ?_
  refine .cons ⟨rfl, fun h => obeys_dgelu_async⟩ ?_
  refine .cons ⟨rfl, fun h => obeys_gelu_backward_async⟩ ?_
  refine .cons ⟨rfl, fun h => obeys_gelutanh_async⟩ ?_
  refine .cons ⟨rfl, fun h => obeys_gelutanh_inplace_async⟩ ?_
  refine .cons ⟨rfl, fun h => obeys_dgelutanh_async⟩ ?_
  refine .cons ⟨rfl, fun h => obeys_gelutanh_backward_async⟩ ?_
  refine .cons ⟨rfl, fun h => obeys_fill_async⟩ ?_
  refine .cons ⟨rfl, fun h => obeys_sum_slice_async⟩ ?_
  refine .cons ⟨rfl, fun h => obeys_sum_fiber_async⟩ ?_
  refine .cons ⟨rfl, fun h => obeys_norm_slice_async⟩ ?_
  refine .cons ⟨rfl, fun h => obeys_pow_async⟩ ?_
  refine .cons ⟨rfl, fun h => obeys_sumnorm_async⟩ ?_
  refine .cons ⟨rfl, fun h => obeys_flash_softmax_gemm_async⟩ ?_
  refine .cons ⟨rfl, fun h => obeys_flash_softmax_gemm_backward_async⟩ ?_
  refine .cons ⟨rfl, fun h => obeys_softmax_async⟩ ?_
  refine .cons ⟨rfl, fun h => obeys_softmax_inplace_async⟩ ?_
  refine .cons ⟨rfl, fun h => absurd rfl h⟩ ?_
  refine .cons ⟨rfl, fun h => obeys_randn_async⟩ ?_
  refine .cons ⟨rfl, fun h => obeys_prod_async⟩ ?_
  refine .cons ⟨rfl, fun h => obeys_add_async⟩ ?_
  refine .cons ⟨rfl, fun h => obeys_nrm2_async⟩ ?_
  refine .cons ⟨rfl, fun h => obeys_normalize_async⟩ ?_
  refine .cons ⟨rfl, fun h => obeys_flash_maxsumexp_async⟩ ?_
  refine .cons ⟨rfl, fun h => obeys_maxsumexp_async⟩ ?_
  refine .cons ⟨rfl, fun h => obeys_add_slice_async⟩ ?_
  refine .cons ⟨rfl, fun h => obeys_add_slice3_async⟩ ?_
  refine .cons ⟨rfl, fun h => obeys_add_fiber_async⟩ ?_
  refine .cons ⟨rfl, fun h => obeys_prod_slice_async⟩ ?_
  refine .cons ⟨rfl, fun h => obeys_prod_fiber_async⟩ ?_
  refine .cons ⟨rfl, fun h => obeys_prod_fiber3_async⟩ ?_
  refine .cons ⟨rfl, fun h => obeys_add_scalar_async⟩ ?_
  refine .cons ⟨rfl, fun h => obeys_gather_async⟩ ?_
  refine .cons ⟨rfl, fun h => obeys_copy_intersection_async⟩ ?_
  refine .cons ⟨rfl, fun h => obeys_copy_async⟩ ?_
  refine .cons ⟨rfl, fun h => obeys_clear_async⟩ ?_
  refine .cons ⟨rfl, fun h => obeys_axpy_async⟩ ?_
  refine .cons ⟨rfl, fun h => obeys_sqrt_async⟩ ?_
  refine .cons ⟨rfl, fun h => obeys_sqrt_inplace_async⟩ ?_
  refine .cons ⟨rfl, fun h => obeys_maximum_async⟩ ?_
  refine .cons ⟨rfl, fun h => obeys_addcdiv_async⟩ ?_
  refine .cons ⟨rfl, fun h => obeys_sumprod_slice_async⟩ ?_
  refine .cons ⟨rfl, fun h => obeys_sumprod_fiber_async⟩ ?_
  refine .cons ⟨rfl, fun h => obeys_logsumexp_async⟩ ?_
  refine .cons ⟨rfl, fun h => obeys_total_sum_accum_async⟩ ?_
  refine .cons ⟨rfl, fun h => obeys_subtract_indexed_outputs_async⟩ ?_
  refine .cons ⟨rfl, fun h => obeys_scal_async⟩ ?_
  refine .cons ⟨rfl, fun h => obeys_scal_inplace_async⟩ ?_
  refine .cons ⟨rfl, fun h => obeys_mask_scalar_async⟩ ?_
  refine .cons ⟨rfl, fun h => obeys_embedding_async⟩ ?_
  refine .cons ⟨rfl, fun h => obeys_embedding_backward_async⟩ ?_
  refine .cons ⟨rfl, fun h => obeys_hypot_async⟩ ?_
  refine .cons ⟨rfl, fun h => obeys_hypot_scalar_inverse_async⟩ ?_
  refine .cons ⟨rfl, fun h => obeys_fused_adam_step⟩ ?_
  refine .cons ⟨rfl, fun h => obeys_fused_adamw_step⟩ ?_
  refine .cons ⟨rfl, fun h => obeys_transpose_async⟩ ?_
  exact .nil

end NNTile
