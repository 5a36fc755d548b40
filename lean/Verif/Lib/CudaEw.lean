import Verif.Lib.CudaItems
import Verif.Model.Elementwise
import Verif.Model.Softmax
import Verif.Model.CrossEntropy
import Verif.Model.Maxsumexp
/-! Element-wise CUDA kernels. -/
namespace NNTile
variable {α : Type} [FP α]

theorem cudaF3_eq : (cudaF3 : α) = gtF3 := rfl
theorem cudaF4_eq : (cudaF4 : α) = gtF4 := rfl
theorem cudaF5_eq : (cudaF5 : α) = gtF5 := rfl

/-- Element `i` belongs to thread `i`. -/
theorem ew_gives {n : Nat} (hn' : n ≤ 2^31) (body : Nat → PM α Unit) (srcs : List (Buf α)) (dst : Buf α) (step : Nat → Buf α → M (Buf α))
    (hfoot : ∀ m0, ∀ i < n, ((body i).prog).Foot m0 (fun l => l.1 = .glob 0 ∧ l.2 = i) (fun l => ∃ b, l.1 = .glob (b+1)) (fun l => l.1 = .glob 0 ∧ False))
    (hrun : ∀ g : Launch α, ∀ i < n, ∀ d d', step i d = .ok d' → ((body i).prog).run (g.mem (taskBufs d srcs)) = .ok (g.mem (taskBufs d' srcs)))
    {dst' : Buf α} (h : forN n step dst = .ok dst') : (ewLaunch 256 n body).Gives srcs dst dst' :=
  ewLaunch_gives (by decide) (by decide) (by decide) hn' body srcs dst (fun i x => x = i) (fun _ => False) (fun i j x _ _ hij h1 h2 => hij (h1.symm.trans h2)) (fun _ _ _ h => h)
    (fun _ h => h.elim) step (hfoot _) (hrun _) h

/-- The footprint of an element-wise kernel. -/
macro "cuda_foot" : tactic => `(tactic| (intro m0 i _; simp only [PM.prog, ld, st, bind, pure, ite_apply, Prog.Foot] <;> grind [Prog.Foot]))
/-- Execution of one thread alone. -/
macro "cuda_run" : tactic => `(tactic| (
  intro g i _ d d' h
  try simp only [M.bind_eq_ok] at h
  simp only [PM.prog, bind, pure, run_ld_dst, run_ld_src, run_st, ite_apply, cudaF3_eq, cudaF4_eq, cudaF5_eq, List.getD_cons_zero, List.getD_cons_succ]
  grind [Except.bind, Prog.run, run_ld_dst, run_ld_src, run_st]))

theorem fillCuda_gives {n : Nat} (hn : n ≤ 2^31) {val : α} { dst dst' : Buf α} (h : fillKernel n val dst = .ok dst') :
    (fillCuda n val : Launch α).Gives [] dst dst' := by
  unfold fillKernel at h
  unfold fillCuda
  refine ew_gives hn _ _ _ _ ?_ ?_ h
  · cuda_foot
  · cuda_run

theorem addCuda_gives {n : Nat} (hn : n ≤ 2^31) {alpha beta : α} {src dst dst' : Buf α} (h : addKernel n alpha src beta dst = .ok dst') :
    (addCuda n alpha beta : Launch α).Gives [src] dst dst' := by
  unfold addKernel at h
  unfold addCuda
  refine ew_gives hn _ _ _ _ ?_ ?_ h
  · cuda_foot
  · cuda_run

theorem addScalarCuda_gives {n : Nat} (hn : n ≤ 2^31) {alpha beta : α} { dst dst' : Buf α} (h : addScalarKernel n alpha beta dst = .ok dst') :
    (addScalarCuda n alpha beta : Launch α).Gives [] dst dst' := by
  unfold addScalarKernel at h
  unfold addScalarCuda
  refine ew_gives hn _ _ _ _ ?_ ?_ h
  · cuda_foot
  · cuda_run

theorem addcdivCuda_gives {n : Nat} (hn : n ≤ 2^31) {val eps : α} {nom denom dst dst' : Buf α} (h : addcdivKernel val eps n nom denom dst = .ok dst') :
    (addcdivCuda val eps n : Launch α).Gives [nom, denom] dst dst' := by
  unfold addcdivKernel at h
  unfold addcdivCuda
  refine ew_gives hn _ _ _ _ ?_ ?_ h
  · cuda_foot
  · cuda_run

theorem dgeluCuda_gives {n : Nat} (hn : n ≤ 2^31)  { dst dst' : Buf α} (h : dgeluKernel n dst = .ok dst') :
    (dgeluCuda n : Launch α).Gives [] dst dst' := by
  unfold dgeluKernel at h
  unfold dgeluCuda
  refine ew_gives hn _ _ _ _ ?_ ?_ h
  · cuda_foot
  · cuda_run

theorem dgelutanhCuda_gives {n : Nat} (hn : n ≤ 2^31)  { dst dst' : Buf α} (h : dgelutanhKernel n dst = .ok dst') :
    (dgelutanhCuda n : Launch α).Gives [] dst dst' := by
  unfold dgelutanhKernel at h
  unfold dgelutanhCuda
  refine ew_gives hn _ _ _ _ ?_ ?_ h
  · cuda_foot
  · cuda_run

theorem dreluCuda_gives {n : Nat} (hn : n ≤ 2^31)  { dst dst' : Buf α} (h : dreluKernel n dst = .ok dst') :
    (dreluCuda n : Launch α).Gives [] dst dst' := by
  unfold dreluKernel at h
  unfold dreluCuda
  refine ew_gives hn _ _ _ _ ?_ ?_ h
  · cuda_foot
  · cuda_run

theorem geluCuda_gives {n : Nat} (hn : n ≤ 2^31)  { dst dst' : Buf α} (h : geluKernel n dst = .ok dst') :
    (geluCuda n : Launch α).Gives [] dst dst' := by
  unfold geluKernel at h
  unfold geluCuda
  refine ew_gives hn _ _ _ _ ?_ ?_ h
  · cuda_foot
  · cuda_run

theorem geluBackwardCuda_gives {n : Nat} (hn : n ≤ 2^31)  {x dy dst dst' : Buf α} (h : geluBackwardKernel n x dy dst = .ok dst') :
    (geluBackwardCuda n : Launch α).Gives [x, dy] dst dst' := by
  unfold geluBackwardKernel at h
  unfold geluBackwardCuda
  refine ew_gives hn _ _ _ _ ?_ ?_ h
  · cuda_foot
  · cuda_run

theorem gelutanhInplaceCuda_gives {n : Nat} (hn : n ≤ 2^31)  { dst dst' : Buf α} (h : gelutanhInplaceKernel n dst = .ok dst') :
    (gelutanhInplaceCuda n : Launch α).Gives [] dst dst' := by
  unfold gelutanhInplaceKernel at h
  unfold gelutanhInplaceCuda
  refine ew_gives hn _ _ _ _ ?_ ?_ h
  · cuda_foot
  · cuda_run

theorem gelutanhBackwardCuda_gives {n : Nat} (hn : n ≤ 2^31)  {x dy dst dst' : Buf α} (h : gelutanhBackwardKernel n x dy dst = .ok dst') :
    (gelutanhBackwardCuda n : Launch α).Gives [x, dy] dst dst' := by
  unfold gelutanhBackwardKernel at h
  unfold gelutanhBackwardCuda
  refine ew_gives hn _ _ _ _ ?_ ?_ h
  · cuda_foot
  · intro g i _ d d' h
    obtain ⟨z, hz, h⟩ := M.bind_eq_ok.1 h
    simp only [PM.prog, bind, pure, run_ld_src, List.getD_cons_zero, hz, Except.bind]
    cases hb : FP.isInf (FP.exp (z * (gtF3 + gtF4 * (z * z))))
    · have hb' : FP.isInf (FP.exp (z * (cudaF3 + cudaF4 * (z * z)))) = false := hb
      simp only [hb, Bool.not_false, if_true] at h
      simp only [hb', Bool.not_false, if_true, run_ld_src, run_ld_dst, run_st, List.getD_cons_zero, List.getD_cons_succ]
      obtain ⟨x, hx, h⟩ := M.bind_eq_ok.1 h
      obtain ⟨y, hy, h⟩ := M.bind_eq_ok.1 h
      simp only [hx, hy, Except.bind, cudaF3_eq, cudaF4_eq, cudaF5_eq, h, Prog.run]
    · have hb' : FP.isInf (FP.exp (z * (cudaF3 + cudaF4 * (z * z)))) = true := hb
      simp only [hb, Bool.not_true, Bool.false_eq_true, if_false] at h
      cases h
      simp only [hb', Bool.not_true, Bool.false_eq_true, if_false, Prog.run]

theorem hypotCuda_gives {n : Nat} (hn : n ≤ 2^31) {alpha beta : α} {src dst dst' : Buf α} (h : hypotKernel n alpha src beta dst = .ok dst') :
    (hypotCuda n alpha beta : Launch α).Gives [src] dst dst' := by
  unfold hypotKernel at h
  unfold hypotCuda
  split at h
  all_goals
    next h1 =>
    split at h
    all_goals
      next h2 =>
      simp only [h1, h2, if_true, if_false, Bool.false_eq_true]
      refine ew_gives hn _ _ _ _ ?_ ?_ h
      · cuda_foot
      · cuda_run

theorem hypotScalarInverseCuda_gives {n : Nat} (hn : n ≤ 2^31) {eps alpha : α} { dst dst' : Buf α} (h : hypotScalarInverseKernel n eps alpha dst = .ok dst') :
    (hypotScalarInverseCuda n eps alpha : Launch α).Gives [] dst dst' := by
  unfold hypotScalarInverseKernel at h
  unfold hypotScalarInverseCuda
  refine ew_gives hn _ _ _ _ ?_ ?_ h
  · cuda_foot
  · cuda_run

theorem prodCuda_gives {n : Nat} (hn : n ≤ 2^31)  {src dst dst' : Buf α} (h : prodKernel n src dst = .ok dst') :
    (prodCuda n : Launch α).Gives [src] dst dst' := by
  unfold prodKernel at h
  unfold prodCuda
  refine ew_gives hn _ _ _ _ ?_ ?_ h
  · cuda_foot
  · cuda_run

theorem reluCuda_gives {n : Nat} (hn : n ≤ 2^31)  { dst dst' : Buf α} (h : reluKernel n dst = .ok dst') :
    (reluCuda n : Launch α).Gives [] dst dst' := by
  unfold reluKernel at h
  unfold reluCuda
  refine ew_gives hn _ _ _ _ ?_ ?_ h
  · cuda_foot
  · cuda_run

theorem reluForwardCuda_gives {n : Nat} (hn : n ≤ 2^31)  {src dst dst' : Buf α} (h : reluForwardKernel n src dst = .ok dst') :
    (reluForwardCuda n : Launch α).Gives [src] dst dst' := by
  unfold reluForwardKernel at h
  unfold reluForwardCuda
  refine ew_gives hn _ _ _ _ ?_ ?_ h
  · cuda_foot
  · cuda_run

theorem reluBackwardCuda_gives {n : Nat} (hn : n ≤ 2^31)  {x dy dst dst' : Buf α} (h : reluBackwardKernel n x dy dst = .ok dst') :
    (reluBackwardCuda n : Launch α).Gives [x, dy] dst dst' := by
  unfold reluBackwardKernel at h
  unfold reluBackwardCuda
  refine ew_gives hn _ _ _ _ ?_ ?_ h
  · cuda_foot
  · intro g i _ d d' h
    obtain ⟨z, hz, h⟩ := M.bind_eq_ok.1 h
    simp only [PM.prog, bind, pure, run_ld_src, List.getD_cons_zero, hz, Except.bind]
    cases hb : FP.ltb 0 z
    · simp only [hb, Bool.false_eq_true, if_false] at h ⊢
      cases h
      simp only [Prog.run]
    · simp only [hb, if_true] at h
      simp only [if_true, run_ld_src, run_ld_dst, run_st, List.getD_cons_zero, List.getD_cons_succ]
      obtain ⟨x, hx, h⟩ := M.bind_eq_ok.1 h
      obtain ⟨y, hy, h⟩ := M.bind_eq_ok.1 h
      simp only [hx, hy, Except.bind, h, Prog.run]

theorem scalCuda_gives {n : Nat} (hn : n ≤ 2^31) {alpha : α} {src dst dst' : Buf α} (h : scalKernel n alpha src dst = .ok dst') :
    (scalCuda n alpha : Launch α).Gives [src] dst dst' := by
  unfold scalKernel at h
  unfold scalCuda
  refine ew_gives hn _ _ _ _ ?_ ?_ h
  · cuda_foot
  · cuda_run

theorem sqrtCuda_gives {n : Nat} (hn : n ≤ 2^31)  {src dst dst' : Buf α} (h : sqrtKernel n src dst = .ok dst') :
    (sqrtCuda n : Launch α).Gives [src] dst dst' := by
  unfold sqrtKernel at h
  unfold sqrtCuda
  refine ew_gives hn _ _ _ _ ?_ ?_ h
  · cuda_foot
  · cuda_run

theorem sqrtInplaceCuda_gives {n : Nat} (hn : n ≤ 2^31)  { dst dst' : Buf α} (h : sqrtInplaceKernel n dst = .ok dst') :
    (sqrtInplaceCuda n : Launch α).Gives [] dst dst' := by
  unfold sqrtInplaceKernel at h
  unfold sqrtInplaceCuda
  refine ew_gives hn _ _ _ _ ?_ ?_ h
  · cuda_foot
  · cuda_run

end NNTile
