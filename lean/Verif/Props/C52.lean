import Verif.Lib.CudaRest
import Mathlib.Tactic.NormNum
/-!
# C52: kernels without barriers give the same result on GPU as on CPU

The starting point is that the kernel for CPU succeeds and gives `dst'`. Then every interleaving of the threads of the kernel for GPU ends, without undefined behaviour and without data races, and
all buffers of the task are the same as after the CPU kernel (`Launch.Gives`). The arithmetic is that of `FP` and no law of arithmetic is used, so the results are equal bit by bit up to
the rounding of library functions and contraction to fused multiply-add, which are not modelled. Sizes are bounded by the limits of CUDA.
-/
namespace NNTile
variable {α : Type} [FP α]

/-- The CPU kernel succeeds in a concrete case. -/
local macro "cuda_ex" : tactic => `(tactic| first | exact ⟨_, rfl⟩ | (norm_num [dreluKernel, hypotKernel, reluBackwardKernel, accumulateMaxsumexpKernel, addSliceKernel, addSlice3Kernel, powKernel, addFiberKernel, forN, Buf.rd, Buf.wr, Buf.ofList, bind, Except.bind] <;> (repeat' split) <;> simp))


theorem C52_fill {n : Nat} (hn : n ≤ 2^31) {val : α} {dst dst' : Buf α} (h : fillKernel n val dst = .ok dst') :
    (fillCuda n val : Launch α).Gives [] dst dst' :=
  fillCuda_gives hn h

example : ∃ d, fillKernel 2 (3 : ℝ) (Buf.ofList [1, 2] : Buf ℝ) = .ok d := by cuda_ex

theorem C52_add {n : Nat} (hn : n ≤ 2^31) {alpha beta : α} {src dst dst' : Buf α} (h : addKernel n alpha src beta dst = .ok dst') :
    (addCuda n alpha beta : Launch α).Gives [src] dst dst' :=
  addCuda_gives hn h

example : ∃ d, addKernel 2 (3 : ℝ) (Buf.ofList [1, 2] : Buf ℝ) 2 (Buf.ofList [1, 2] : Buf ℝ) = .ok d := by cuda_ex

theorem C52_addScalar {n : Nat} (hn : n ≤ 2^31) {alpha beta : α} {dst dst' : Buf α} (h : addScalarKernel n alpha beta dst = .ok dst') :
    (addScalarCuda n alpha beta : Launch α).Gives [] dst dst' :=
  addScalarCuda_gives hn h

example : ∃ d, addScalarKernel 2 (3 : ℝ) 2 (Buf.ofList [1, 2] : Buf ℝ) = .ok d := by cuda_ex

theorem C52_addcdiv {n : Nat} (hn : n ≤ 2^31) {val eps : α} {nom denom dst dst' : Buf α} (h : addcdivKernel val eps n nom denom dst = .ok dst') :
    (addcdivCuda val eps n : Launch α).Gives [nom, denom] dst dst' :=
  addcdivCuda_gives hn h

example : ∃ d, addcdivKernel (3 : ℝ) 1 2 (Buf.ofList [1, 2] : Buf ℝ) (Buf.ofList [1, 2] : Buf ℝ) (Buf.ofList [1, 2] : Buf ℝ) = .ok d := by cuda_ex

theorem C52_dgelu {n : Nat} (hn : n ≤ 2^31) {dst dst' : Buf α} (h : dgeluKernel n dst = .ok dst') :
    (dgeluCuda n : Launch α).Gives [] dst dst' :=
  dgeluCuda_gives hn h

example : ∃ d, dgeluKernel 2 (Buf.ofList [1, 2] : Buf ℝ) = .ok d := by cuda_ex

theorem C52_dgelutanh {n : Nat} (hn : n ≤ 2^31) {dst dst' : Buf α} (h : dgelutanhKernel n dst = .ok dst') :
    (dgelutanhCuda n : Launch α).Gives [] dst dst' :=
  dgelutanhCuda_gives hn h

example : ∃ d, dgelutanhKernel 2 (Buf.ofList [1, 2] : Buf ℝ) = .ok d := by cuda_ex

theorem C52_drelu {n : Nat} (hn : n ≤ 2^31) {dst dst' : Buf α} (h : dreluKernel n dst = .ok dst') :
    (dreluCuda n : Launch α).Gives [] dst dst' :=
  dreluCuda_gives hn h

example : ∃ d, dreluKernel 2 (Buf.ofList [1, 2] : Buf ℝ) = .ok d := by cuda_ex

theorem C52_gelu {n : Nat} (hn : n ≤ 2^31) {dst dst' : Buf α} (h : geluKernel n dst = .ok dst') :
    (geluCuda n : Launch α).Gives [] dst dst' :=
  geluCuda_gives hn h

example : ∃ d, geluKernel 2 (Buf.ofList [1, 2] : Buf ℝ) = .ok d := by cuda_ex

theorem C52_geluBackward {n : Nat} (hn : n ≤ 2^31) {x dy dst dst' : Buf α} (h : geluBackwardKernel n x dy dst = .ok dst') :
    (geluBackwardCuda n : Launch α).Gives [x, dy] dst dst' :=
  geluBackwardCuda_gives hn h

example : ∃ d, geluBackwardKernel 2 (Buf.ofList [1, 2] : Buf ℝ) (Buf.ofList [1, 2] : Buf ℝ) (Buf.ofList [1, 2] : Buf ℝ) = .ok d := by cuda_ex

theorem C52_gelutanhInplace {n : Nat} (hn : n ≤ 2^31) {dst dst' : Buf α} (h : gelutanhInplaceKernel n dst = .ok dst') :
    (gelutanhInplaceCuda n : Launch α).Gives [] dst dst' :=
  gelutanhInplaceCuda_gives hn h

example : ∃ d, gelutanhInplaceKernel 2 (Buf.ofList [1, 2] : Buf ℝ) = .ok d := by cuda_ex

theorem C52_gelutanhBackward {n : Nat} (hn : n ≤ 2^31) {x dy dst dst' : Buf α} (h : gelutanhBackwardKernel n x dy dst = .ok dst') :
    (gelutanhBackwardCuda n : Launch α).Gives [x, dy] dst dst' :=
  gelutanhBackwardCuda_gives hn h

example : ∃ d, gelutanhBackwardKernel 2 (Buf.ofList [1, 2] : Buf ℝ) (Buf.ofList [1, 2] : Buf ℝ) (Buf.ofList [1, 2] : Buf ℝ) = .ok d := by cuda_ex

theorem C52_hypot {n : Nat} (hn : n ≤ 2^31) {alpha beta : α} {src dst dst' : Buf α} (h : hypotKernel n alpha src beta dst = .ok dst') :
    (hypotCuda n alpha beta : Launch α).Gives [src] dst dst' :=
  hypotCuda_gives hn h

example : ∃ d, hypotKernel 2 (3 : ℝ) (Buf.ofList [1, 2] : Buf ℝ) 2 (Buf.ofList [1, 2] : Buf ℝ) = .ok d := by cuda_ex

theorem C52_hypotScalarInverse {n : Nat} (hn : n ≤ 2^31) {eps alpha : α} {dst dst' : Buf α} (h : hypotScalarInverseKernel n eps alpha dst = .ok dst') :
    (hypotScalarInverseCuda n eps alpha : Launch α).Gives [] dst dst' :=
  hypotScalarInverseCuda_gives hn h

example : ∃ d, hypotScalarInverseKernel 2 (3 : ℝ) 2 (Buf.ofList [1, 2] : Buf ℝ) = .ok d := by cuda_ex

theorem C52_prod {n : Nat} (hn : n ≤ 2^31) {src dst dst' : Buf α} (h : prodKernel n src dst = .ok dst') :
    (prodCuda n : Launch α).Gives [src] dst dst' :=
  prodCuda_gives hn h

example : ∃ d, prodKernel 2 (Buf.ofList [1, 2] : Buf ℝ) (Buf.ofList [1, 2] : Buf ℝ) = .ok d := by cuda_ex

theorem C52_relu {n : Nat} (hn : n ≤ 2^31) {dst dst' : Buf α} (h : reluKernel n dst = .ok dst') :
    (reluCuda n : Launch α).Gives [] dst dst' :=
  reluCuda_gives hn h

example : ∃ d, reluKernel 2 (Buf.ofList [1, 2] : Buf ℝ) = .ok d := by cuda_ex

theorem C52_reluForward {n : Nat} (hn : n ≤ 2^31) {src dst dst' : Buf α} (h : reluForwardKernel n src dst = .ok dst') :
    (reluForwardCuda n : Launch α).Gives [src] dst dst' :=
  reluForwardCuda_gives hn h

example : ∃ d, reluForwardKernel 2 (Buf.ofList [1, 2] : Buf ℝ) (Buf.ofList [1, 2] : Buf ℝ) = .ok d := by cuda_ex

theorem C52_reluBackward {n : Nat} (hn : n ≤ 2^31) {x dy dst dst' : Buf α} (h : reluBackwardKernel n x dy dst = .ok dst') :
    (reluBackwardCuda n : Launch α).Gives [x, dy] dst dst' :=
  reluBackwardCuda_gives hn h

example : ∃ d, reluBackwardKernel 2 (Buf.ofList [1, 2] : Buf ℝ) (Buf.ofList [1, 2] : Buf ℝ) (Buf.ofList [1, 2] : Buf ℝ) = .ok d := by cuda_ex

theorem C52_scal {n : Nat} (hn : n ≤ 2^31) {alpha : α} {src dst dst' : Buf α} (h : scalKernel n alpha src dst = .ok dst') :
    (scalCuda n alpha : Launch α).Gives [src] dst dst' :=
  scalCuda_gives hn h

example : ∃ d, scalKernel 2 (3 : ℝ) (Buf.ofList [1, 2] : Buf ℝ) (Buf.ofList [1, 2] : Buf ℝ) = .ok d := by cuda_ex

theorem C52_sqrt {n : Nat} (hn : n ≤ 2^31) {src dst dst' : Buf α} (h : sqrtKernel n src dst = .ok dst') :
    (sqrtCuda n : Launch α).Gives [src] dst dst' :=
  sqrtCuda_gives hn h

example : ∃ d, sqrtKernel 2 (Buf.ofList [1, 2] : Buf ℝ) (Buf.ofList [1, 2] : Buf ℝ) = .ok d := by cuda_ex

theorem C52_sqrtInplace {n : Nat} (hn : n ≤ 2^31) {dst dst' : Buf α} (h : sqrtInplaceKernel n dst = .ok dst') :
    (sqrtInplaceCuda n : Launch α).Gives [] dst dst' :=
  sqrtInplaceCuda_gives hn h

example : ∃ d, sqrtInplaceKernel 2 (Buf.ofList [1, 2] : Buf ℝ) = .ok d := by cuda_ex

theorem C52_logsumexp {n : Nat} (hn : n ≤ 2^30) {src dst dst' : Buf α} (h : logsumexpKernel n src dst = .ok dst') :
    (logsumexpCuda n : Launch α).Gives [src] dst dst' :=
  logsumexpCuda_gives hn h

example : ∃ d, logsumexpKernel 1 (Buf.ofList [1, 2] : Buf ℝ) (Buf.ofList [1, 2] : Buf ℝ) = .ok d := by cuda_ex

theorem C52_accumulateMaxsumexp {n : Nat} (hn : n ≤ 2^30) {src dst dst' : Buf α} (h : accumulateMaxsumexpKernel n src dst = .ok dst') :
    (accumulateMaxsumexpCuda n : Launch α).Gives [src] dst dst' :=
  accumulateMaxsumexpCuda_gives hn h

example : ∃ d, accumulateMaxsumexpKernel 1 (Buf.ofList [1, 2] : Buf ℝ) (Buf.ofList [1, 2] : Buf ℝ) = .ok d := by cuda_ex

theorem C52_subtractIndexed {asIdx : α → Int} {n_labels n : Nat} (hn : n ≤ 2^31) {val : α} {labels dst dst' : Buf α}
    (hl : ∀ i l, i < n → labels.rd i = .ok l → 0 ≤ asIdx l ∧ asIdx l < n_labels) (h : subtractIndexedKernel asIdx n_labels n val labels dst = .ok dst') :
    (subtractIndexedCuda asIdx n_labels n val).Gives [labels] dst dst' :=
  subtractIndexedCuda_gives hn hl h

example : ∃ d, subtractIndexedKernel (fun _ => 0) 2 1 (3 : ℝ) (Buf.ofList [1, 2] : Buf ℝ) (Buf.ofList [1, 2] : Buf ℝ) = .ok d := by cuda_ex

theorem C52_addSlice {m n k : Nat} (hx : 0 < m ∧ m < 2^31) (hy : 0 < n ∧ n ≤ 8 * 65535) (hz : 0 < k ∧ k ≤ 16 * 65535) {alpha beta : α} {src dst dst' : Buf α} (h : addSliceKernel m n k alpha src beta dst = .ok dst') :
    ∃ g, addSliceCuda m n k alpha beta = .ok g ∧ g.Gives [src] dst dst' :=
  addSliceCuda_gives ⟨hx, ⟨hy.1, by omega⟩, ⟨hz.1, by omega⟩, by omega, by omega, by omega⟩ h

example : ∃ d, addSliceKernel 1 1 2 (3 : ℝ) (Buf.ofList [1, 2] : Buf ℝ) 2 (Buf.ofList [1, 2] : Buf ℝ) = .ok d := by cuda_ex

theorem C52_addSlice3 {m n k : Nat} (hx : 0 < m ∧ m < 2^31) (hy : 0 < n ∧ n ≤ 8 * 65535) (hz : 0 < k ∧ k ≤ 16 * 65535) {alpha beta : α} {src1 src2 dst dst' : Buf α} (h : addSlice3Kernel m n k alpha src1 beta src2 dst = .ok dst') :
    ∃ g, addSlice3Cuda m n k alpha beta = .ok g ∧ g.Gives [src1, src2] dst dst' :=
  addSlice3Cuda_gives ⟨hx, ⟨hy.1, by omega⟩, ⟨hz.1, by omega⟩, by omega, by omega, by omega⟩ h

example : ∃ d, addSlice3Kernel 1 1 2 (3 : ℝ) (Buf.ofList [1, 2] : Buf ℝ) 2 (Buf.ofList [1, 2] : Buf ℝ) (Buf.ofList [1, 2] : Buf ℝ) = .ok d := by cuda_ex

theorem C52_prodSlice {m n k : Nat} (hx : 0 < m ∧ m < 2^31) (hy : 0 < n ∧ n ≤ 8 * 65535) (hz : 0 < k ∧ k ≤ 16 * 65535) {alpha : α} {src dst dst' : Buf α} (h : prodSliceKernel m n k alpha src dst = .ok dst') :
    ∃ g, prodSliceCuda m n k alpha = .ok g ∧ g.Gives [src] dst dst' :=
  prodSliceCuda_gives ⟨hx, ⟨hy.1, by omega⟩, ⟨hz.1, by omega⟩, by omega, by omega, by omega⟩ h

example : ∃ d, prodSliceKernel 1 1 2 (3 : ℝ) (Buf.ofList [1, 2] : Buf ℝ) (Buf.ofList [1, 2] : Buf ℝ) = .ok d := by cuda_ex

theorem C52_prodFiber {m n k : Nat} (hx : 0 < m ∧ m < 2^31) (hy : 0 < n ∧ n ≤ 8 * 65535) (hz : 0 < k ∧ k ≤ 16 * 65535) {alpha : α} {src dst dst' : Buf α} (h : prodFiberKernel m n k alpha src dst = .ok dst') :
    ∃ g, prodFiberCuda m n k alpha = .ok g ∧ g.Gives [src] dst dst' :=
  prodFiberCuda_gives ⟨hx, ⟨hy.1, by omega⟩, ⟨hz.1, by omega⟩, by omega, by omega, by omega⟩ h

example : ∃ d, prodFiberKernel 1 1 2 (3 : ℝ) (Buf.ofList [1, 2] : Buf ℝ) (Buf.ofList [1, 2] : Buf ℝ) = .ok d := by cuda_ex

theorem C52_prodFiber3 {m n k : Nat} (hx : 0 < m ∧ m < 2^31) (hy : 0 < n ∧ n ≤ 8 * 65535) (hz : 0 < k ∧ k ≤ 16 * 65535) {alpha : α} {src1 src2 dst dst' : Buf α} (h : prodFiber3Kernel m n k alpha src1 src2 dst = .ok dst') :
    ∃ g, prodFiber3Cuda m n k alpha = .ok g ∧ g.Gives [src1, src2] dst dst' :=
  prodFiber3Cuda_gives ⟨hx, ⟨hy.1, by omega⟩, ⟨hz.1, by omega⟩, by omega, by omega, by omega⟩ h

example : ∃ d, prodFiber3Kernel 1 1 2 (3 : ℝ) (Buf.ofList [1, 2] : Buf ℝ) (Buf.ofList [1, 2] : Buf ℝ) (Buf.ofList [1, 2] : Buf ℝ) = .ok d := by cuda_ex

theorem C52_pow {n : Nat} {alpha exp : α} (he : FP.eqb exp (-1) = false) {dst dst' : Buf α} (h : powKernel n alpha exp dst = .ok dst') :
    (powCuda n alpha exp).Gives [] dst dst' :=
  powCuda_gives he h

example : FP.eqb (2 : ℝ) (-1) = false ∧ ∃ d, powKernel 2 (3 : ℝ) 2 (Buf.ofList [1, 2] : Buf ℝ) = .ok d := by cuda_ex

theorem C52_sumnorm {m n k : Nat} {src dst dst' : Buf α} (h : sumnormKernel m n k src dst = .ok dst') : (sumnormCuda m n k : Launch α).Gives [src] dst dst' :=
  sumnormCuda_gives h

example : ∃ d, sumnormKernel 1 1 2 (Buf.ofList [1, 2] : Buf ℝ) (Buf.ofList [1, 2] : Buf ℝ) = .ok d := by cuda_ex

theorem C52_normalize {m n k : Nat} {l : Int} {eps : α} {gamma_beta sumnorm dst dst' : Buf α} (h : normalizeKernel m n k l eps gamma_beta sumnorm dst = .ok dst') :
    (normalizeCuda m n k l eps).Gives [gamma_beta, sumnorm] dst dst' :=
  normalizeCuda_gives h

example : ∃ d, normalizeKernel 1 1 2 2 (3 : ℝ) (Buf.ofList [1, 2] : Buf ℝ) (Buf.ofList [1, 2] : Buf ℝ) (Buf.ofList [1, 2] : Buf ℝ) = .ok d := by cuda_ex

theorem C52_addFiber {m n k batch : Nat} (hx : 0 < k ∧ k < 2^31) (hy : 0 < m ∧ m ≤ 65535) (hz : 0 < n ∧ n ≤ 65535) {alpha beta : α} (hb : FP.eqb beta 0 = false) {src dst dst' : Buf α}
    (h : addFiberKernel m n k batch alpha src beta dst = .ok dst') : ∃ g, addFiberCuda m n k batch alpha beta = .ok g ∧ g.Gives [src] dst dst' :=
  addFiberCuda_gives ⟨hx, ⟨hy.1, by omega⟩, ⟨hz.1, by omega⟩, by omega, by omega, by omega⟩ hb h

example : FP.eqb (2 : ℝ) 0 = false ∧ ∃ d, addFiberKernel 1 1 2 1 (3 : ℝ) (Buf.ofList [1, 2] : Buf ℝ) 2 (Buf.ofList [1, 2] : Buf ℝ) = .ok d := by cuda_ex

theorem C52_embedding {asIdx : α → Int} {m n k k_start k_size : Nat} (hx : 0 < m ∧ m < 2^31) (hy : 0 < n ∧ n ≤ 8 * 65535) (hz : 0 < k_size ∧ k_size ≤ 16 * 65535) (hk : k_start + k_size ≤ k) {index vocab dst dst' : Buf α}
    (h : embeddingKernel asIdx m n k k_start k_size index vocab dst = .ok dst') :
    ∃ g, embeddingCuda asIdx m n k k_start k_size = .ok g ∧ g.Gives [index, vocab] dst dst' :=
  embeddingCuda_gives ⟨hx, ⟨hy.1, by omega⟩, ⟨hz.1, by omega⟩, by omega, by omega, by omega⟩ hk h

example : ∃ d, embeddingKernel (fun _ => 0) 1 1 2 0 2 (Buf.ofList [1, 2] : Buf ℝ) (Buf.ofList [1, 2] : Buf ℝ) (Buf.ofList [1, 2] : Buf ℝ) = .ok d := by cuda_ex

theorem C52_maskScalar {asBool : α → Bool} {nrows ncols : Nat} (hr : nrows ≤ 2^31) (hc : ncols < 2^16) {val : α} {mask dst dst' : Buf α}
    (h : maskScalarKernel asBool nrows ncols mask val dst = .ok dst') : (maskScalarCuda asBool nrows ncols val).Gives [mask] dst dst' :=
  maskScalarCuda_gives hr hc h

example : ∃ d, maskScalarKernel (fun _ => false) 2 1 (Buf.ofList [1, 2] : Buf ℝ) (3 : ℝ) (Buf.ofList [1, 2] : Buf ℝ) = .ok d := by cuda_ex

theorem C52_transpose {m n : Nat} (hmn : m * n ≤ 2^31) {alpha : α} {src dst dst' : Buf α} (h : transposeKernel m n alpha src dst = .ok dst') :
    (transposeCuda m n alpha).Gives [src] dst dst' :=
  transposeCuda_gives hmn h

example : ∃ d, transposeKernel 1 2 (3 : ℝ) (Buf.ofList [1, 2] : Buf ℝ) (Buf.ofList [1, 2] : Buf ℝ) = .ok d := by cuda_ex

/-- Buffers of `adam_step` and `adamw_step`: `p`, `grad`, `first_moment`, `second_moment`. -/
theorem C52_adam {num_iter : Int} {n : Nat} (hn : n ≤ 2^31) {beta_1 beta_2 eps lr weight_decay : α} {grad : Buf α} {b b' : AdamBufs α}
    (h : adamKernel num_iter n beta_1 beta_2 eps lr weight_decay grad b = .ok b') :
    (adamCuda num_iter n beta_1 beta_2 eps lr weight_decay).Works (taskBufs b.p [grad, b.first_moment, b.second_moment])
      fun bs => bs = taskBufs b'.p [grad, b'.first_moment, b'.second_moment] :=
  adamLoopCuda_works hn h

theorem C52_adamw {num_iter : Int} {n : Nat} (hn : n ≤ 2^31) {beta_1 beta_2 eps lr weight_decay : α} {grad : Buf α} {b b' : AdamBufs α}
    (h : adamwKernel num_iter n beta_1 beta_2 eps lr weight_decay grad b = .ok b') :
    (adamwCuda num_iter n beta_1 beta_2 eps lr weight_decay).Works (taskBufs b.p [grad, b.first_moment, b.second_moment])
      fun bs => bs = taskBufs b'.p [grad, b'.first_moment, b'.second_moment] :=
  adamLoopCuda_works hn h

example : ∃ d, adamKernel 2 2 (1/2 : ℝ) (1/2) 1 1 0 (Buf.ofList [1, 2]) ⟨Buf.ofList [1, 2], Buf.ofList [1, 2], Buf.ofList [1, 2]⟩ = .ok d := ⟨_, rfl⟩
example : ∃ d, adamwKernel 2 2 (1/2 : ℝ) (1/2) 1 1 0 (Buf.ofList [1, 2]) ⟨Buf.ofList [1, 2], Buf.ofList [1, 2], Buf.ofList [1, 2]⟩ = .ok d := ⟨_, rfl⟩

end NNTile
