import Verif.Lib.CudaReal
/-!
# C53: kernels for GPU that use another order of operations compute the same numbers in exact arithmetic

`embedding_backward` and `total_sum_accum` add by atomic operations in an order that depends on the interleaving of the threads; `maximum`, `gelutanh` and `pow` use another formula.
-/
namespace NNTile

local macro "cuda_ex" : tactic => `(tactic| first | exact ⟨_, rfl⟩ | (norm_num [powKernel, forN, Buf.rd, Buf.wr, Buf.ofList, bind, Except.bind]))


theorem C53_embeddingBackward {asIdx : ℝ → Int} {m n k k_start k_size : Nat} (hm : m < 2^16) (hn : n < 2^16) (hk : k_size ≤ 2^31)
   {index embed dst dst' : Buf ℝ} (h : embeddingBackwardKernel asIdx m n k k_start k_size index embed dst = .ok dst') :
    (embeddingBackwardCuda asIdx m n k k_start k_size).Gives [index, embed] dst dst' :=
  embeddingBackwardCuda_gives (fun a b c => by ring) hm hn hk h

example : ∃ d, embeddingBackwardKernel (fun _ => 0) 1 1 2 0 2 (Buf.ofList [1, 2] : Buf ℝ) (Buf.ofList [1, 2] : Buf ℝ) (Buf.ofList [1, 2] : Buf ℝ) = .ok d := by cuda_ex

theorem C53_totalSumAccum {asIdx : ℝ → Int} {alpha : ℝ} {n_labels n : Nat} (hn : n ≤ 2^31) {lse src labels dst dst' : Buf ℝ}
    (h : totalSumAccumKernel asIdx alpha n_labels n lse src labels dst = .ok dst') : (totalSumAccumCuda asIdx alpha n_labels n).Gives [lse, src, labels] dst dst' :=
  totalSumAccumCuda_gives hn h

example : ∃ d, totalSumAccumKernel (fun _ => 0) 2 2 1 (Buf.ofList [1, 2] : Buf ℝ) (Buf.ofList [1, 2] : Buf ℝ) (Buf.ofList [1, 2] : Buf ℝ) (Buf.ofList [1, 2] : Buf ℝ) = .ok d := by cuda_ex

theorem C53_maximum {n : Nat} (hn : n ≤ 2^31) {src dst dst' : Buf ℝ} (h : maximumKernel n src dst = .ok dst') : (maximumCuda n : Launch ℝ).Gives [src] dst dst' :=
  maximumCuda_gives hn h

example : ∃ d, maximumKernel 2 (Buf.ofList [1, 2] : Buf ℝ) (Buf.ofList [1, 2] : Buf ℝ) = .ok d := by cuda_ex

theorem C53_gelutanh {n : Nat} (hn : n ≤ 2^31) {src dst dst' : Buf ℝ} (h : gelutanhKernel n src dst = .ok dst') : (gelutanhCuda n : Launch ℝ).Gives [src] dst dst' :=
  gelutanhCuda_gives hn h

example : ∃ d, gelutanhKernel 2 (Buf.ofList [1, 2] : Buf ℝ) (Buf.ofList [1, 2] : Buf ℝ) = .ok d := by cuda_ex

theorem C53_pow {n : Nat} {alpha exp : ℝ} {dst dst' : Buf ℝ} (h : powKernel n alpha exp dst = .ok dst') : (powCuda n alpha exp).Gives [] dst dst' :=
  powCuda_gives_real h

example : FP.eqb (2 : ℝ) (-1) = false ∧ ∃ d, powKernel 2 (3 : ℝ) 2 (Buf.ofList [1, 2] : Buf ℝ) = .ok d := by cuda_ex

end NNTile
