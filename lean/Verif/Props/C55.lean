import Verif.Lib.CudaFiberSum
import Verif.Lib.CudaNorm
import Verif.Lib.CudaSoftmax
import Verif.Lib.CudaMse
import Verif.Lib.Maxsumexp
import Mathlib.Tactic.NormNum
import Mathlib.Tactic.IntervalCases
import Mathlib.Tactic.Ring
import Mathlib.Tactic.Linarith
/-!
# C55: kernels with barriers and shared memory give the same result on GPU as on CPU

The starting point is again that the kernel for CPU succeeds and gives `dst'`. Then every interleaving of the threads ends, without undefined behaviour, data races and deadlocks, with
`dst'` (`Launch.Gives`). `softmax` and `softmax_inplace` do the same operations as on CPU, so that the results are equal bit by bit; the sums and norms are collected in an order that
depends on the interleaving, hence exact arithmetic. `maxsumexp` may store another pair than on CPU: it is the same sum of exponents (see C54 for the pair). Sizes are bounded by the limits
of CUDA.
-/
namespace NNTile
open Finset

/-- The CPU kernel succeeds in a concrete case. -/
local macro "cuda_ex" : tactic => `(tactic| first | exact ⟨_, rfl⟩ | (norm_num [sumSliceKernel, sumprodSliceKernel, sumFiberKernel, sumprodFiberKernel, normSliceKernel, storeSum, storeNorm, forN, Buf.rd, Buf.wr, Buf.ofList, bind, Except.bind] <;> (repeat' split) <;> simp))

theorem C55_sumSlice {m n k : Nat} (hm : 0 < m ∧ m < 2^31) (hn : 0 < n ∧ n ≤ 8*65535) (hk : 0 < k ∧ k < 2^31) {alpha beta : ℝ} {src dst dst' : Buf ℝ}
    (h : sumSliceKernel m n k alpha src beta dst = .ok dst') : ∃ g, sumSliceCuda m n k alpha beta = .ok g ∧ g.Gives [src] dst dst' :=
  sumSliceCuda_gives hm hn hk h

example : ∃ d, sumSliceKernel 1 1 2 (3 : ℝ) (Buf.ofList [1, 2]) 0 (Buf.ofList [1]) = .ok d := by cuda_ex

theorem C55_sumprodSlice {m n k : Nat} (hm : 0 < m ∧ m < 2^31) (hn : 0 < n ∧ n ≤ 8*65535) {alpha beta : ℝ} {src1 src2 dst dst' : Buf ℝ}
    (h : sumprodSliceKernel m n k alpha src1 src2 beta dst = .ok dst') : ∃ g, sumprodSliceCuda m n k alpha beta = .ok g ∧ g.Gives [src1, src2] dst dst' :=
  sumprodSliceCuda_gives hm hn h

example : ∃ d, sumprodSliceKernel 1 1 2 (3 : ℝ) (Buf.ofList [1, 2]) (Buf.ofList [4, 2]) 0 (Buf.ofList [1]) = .ok d := by cuda_ex

theorem C55_sumFiber {m n k batch : Nat} (hm : 0 < m ∧ m < 2^31) (hn : 0 < n ∧ n < 2^31) (hk : 0 < k * batch ∧ k * batch < 2^31) {alpha beta : ℝ} {src dst dst' : Buf ℝ}
    (h : sumFiberKernel m n k batch alpha src beta dst = .ok dst') : (sumFiberCuda m n k batch alpha beta).Gives [src] dst dst' :=
  sumFiberCuda_gives hm hn hk h

example : ∃ d, sumFiberKernel 1 2 1 1 (3 : ℝ) (Buf.ofList [1, 2]) 0 (Buf.ofList [1]) = .ok d := by cuda_ex

/-- Here the number of threads of a block must not exceed 1024, see C54. -/
theorem C55_sumprodFiber {m n k : Nat} (hm : 0 < m ∧ m < 2^31) (hn : 0 < n ∧ n < 2^31) (hmn : min m 32 * min n 32 ≤ 512) (hk : 0 < k ∧ k < 2^31) {alpha beta : ℝ}
    {src1 src2 dst dst' : Buf ℝ} (h : sumprodFiberKernel m n k alpha src1 src2 beta dst = .ok dst') : (sumprodFiberCuda m n k alpha beta).Gives [src1, src2] dst dst' :=
  sumprodFiberCuda_gives hm hn hmn hk h

example : ∃ d, sumprodFiberKernel 1 2 1 (3 : ℝ) (Buf.ofList [1, 2]) (Buf.ofList [4, 2]) 0 (Buf.ofList [1]) = .ok d := by cuda_ex

/-- Here every fiber must contain a nonzero number, see C54. -/
theorem C55_normSlice {m n k : Nat} (hm : 0 < m ∧ m < 2^31) (hn : 0 < n ∧ n ≤ 8*65535) (hk : 0 < k ∧ k < 2^31) {alpha beta : ℝ} {src dst dst' : Buf ℝ}
    (h : normSliceKernel m n k alpha src beta dst = .ok dst') (hne : ∀ i1 i0, i1 < n → i0 < m → ∃ j, j < k ∧ src.data (i1*(m*k) + i0 + j*m) ≠ some 0) :
    ∃ g, normSliceCuda m n k alpha beta = .ok g ∧ g.Gives [src] dst dst' :=
  normSliceCuda_gives hm hn hk h hne

example : (∃ d, normSliceKernel 1 1 2 (3 : ℝ) (Buf.ofList [0, 2]) 0 (Buf.ofList [1]) = .ok d) ∧
    ∀ i1 i0, i1 < 1 → i0 < 1 → ∃ j, j < 2 ∧ (Buf.ofList [(0 : ℝ), 2]).data (i1*(1*2) + i0 + j*1) ≠ some 0 := by
  refine ⟨?_, fun i1 i0 h1 h0 => ⟨1, by decide, ?_⟩⟩
  · cuda_ex
  · obtain rfl : i1 = 0 := by omega
    obtain rfl : i0 = 0 := by omega
    simp [Buf.ofList]

theorem C55_softmax {α : Type} [FP α] {m n k : Nat} (hm : 0 < m ∧ m ≤ 65535) (hn : 0 < n ∧ n ≤ 65535) (hk : 0 < k) {alpha : α} {mse src dst dst' : Buf α}
    (h : softmaxKernel m n k mse src alpha dst = .ok dst') : (softmaxCuda m n k alpha).Gives [mse, src] dst dst' :=
  softmaxCuda_gives hm hn hk h

theorem C55_softmaxInplace {α : Type} [FP α] {m n k : Nat} (hm : 0 < m ∧ m ≤ 65535) (hn : 0 < n ∧ n ≤ 65535) (hk : 0 < k) {alpha : α} {mse dst dst' : Buf α}
    (h : softmaxInplaceKernel m n k mse alpha dst = .ok dst') : (softmaxInplaceCuda m n k alpha).Gives [mse] dst dst' :=
  softmaxInplaceCuda_gives hm hn hk h

example : ∃ d, softmaxKernel 1 1 2 (Buf.ofList [(1 : ℝ), 2]) (Buf.ofList [1, 2]) 3 (Buf.ofList [1, 1]) = .ok d := by cuda_ex
example : ∃ d, softmaxInplaceKernel 1 1 2 (Buf.ofList [(1 : ℝ), 2]) 3 (Buf.ofList [1, 1]) = .ok d := by cuda_ex

/-- `s * exp(a)` of a pair: the sum of exponents it stands for. -/
private noncomputable def Mse.expo : Mse → ℝ
  | .empty => 0
  | .pair m s => s * Real.exp m

private theorem Mse.expo_add (p q : Mse) : (p + q).expo = p.expo + q.expo := by
  rcases p with _ | ⟨m, s⟩
  · simp [Mse.add_eq, Mse.add, Mse.expo]
  rcases q with _ | ⟨m', s'⟩
  · simp [Mse.add_eq, Mse.add, Mse.expo]
  rw [Mse.add_eq, Mse.add_some]
  simp only [Mse.expo, add_mul, mul_assoc, ← Real.exp_add, sub_add_cancel]

private theorem Mse.expo_of (x : XReal) : (Mse.of x).expo = expWeight 0 x := by
  cases x <;> simp [Mse.of, Mse.expo, expWeight]

private theorem Mse.expo_sum (k : Nat) (x : Nat → XReal) : (∑ j ∈ range k, Mse.of (x j)).expo = ∑ j ∈ range k, expWeight 0 (x j) := by
  induction k with
  | zero => rfl
  | succ k ih => rw [sum_range_succ, sum_range_succ, Mse.expo_add, ih, Mse.expo_of]

private theorem Mse.enc_expo {q : Mse} (hq : q.Valid) : ∃ A S : ℝ, q.enc 0 = .fin A ∧ q.enc 1 = .fin S ∧ 0 ≤ S ∧ S * Real.exp A = q.expo := by
  rcases q with _ | ⟨m, s⟩
  · exact ⟨0, 0, rfl, rfl, le_rfl, by simp [Mse.expo]⟩
  · exact ⟨m, s, rfl, rfl, le_of_lt hq, rfl⟩

/-- The pairs `(A, S)` stored by the CPU and `(a, s)` stored by the GPU, whatever the interleaving, stand for the same sum of exponents. Therefore `logsumexp` and `softmax` computed from
them are equal. Before, a pair is either real with a positive sum or the zeroes written by `clear`. -/
theorem C55_maxsumexp {m n k : Nat} (hm : 0 < m ∧ m ≤ 65535) (hn : 0 < n ∧ n ≤ 65535) (hk : 0 < k) {src dst : Buf XReal} (hs : src.size = m*(k*n)) (hd : dst.size = 2*(m*n))
    (hx : ∀ j, j < m*(k*n) → ∃ v, src.data j = some v ∧ v.NumOrMask)
    (hq : ∀ c, c < m*n → ∃ a s : ℝ, dst.data (2*c) = some (.fin a) ∧ dst.data (2*c + 1) = some (.fin s) ∧ (0 < s ∨ a = 0 ∧ s = 0)) :
    ∃ dst', maxsumexpKernel m n k src dst = .ok dst' ∧ (maxsumexpCuda m n k).Works (taskBufs dst [src]) fun bs =>
      (∀ b, 0 < b → bs b = taskBufs dst [src] b) ∧ (bs 0).size = dst.size ∧
      ∀ c, c < m*n → ∃ A S a s : ℝ, dst'.data (2*c) = some (.fin A) ∧ dst'.data (2*c + 1) = some (.fin S) ∧
        (bs 0).data (2*c) = some (.fin a) ∧ (bs 0).data (2*c + 1) = some (.fin s) ∧ 0 ≤ S ∧ 0 ≤ s ∧
        s * Real.exp a = S * Real.exp A ∧ (0 < S → a + Real.log s = A + Real.log S) ∧ ∀ v, Real.exp (v - a) / s = Real.exp (v - A) / S := by
  classical
  choose! x hx using hx
  choose! a s hq using hq
  let q : Nat → Mse := fun c => if 0 < s c then .pair (a c) (s c) else .empty
  have hqv : ∀ c, c < m*n → (q c).Valid ∧ ∀ e, e < 2 → dst.data (e + 2*c) = some ((q c).enc e) := by
    intro c hc
    obtain ⟨h1, h2, h3⟩ := hq c hc
    rcases h3 with h3 | ⟨h3, h4⟩
    · simp only [q, if_pos h3]
      refine ⟨h3, fun e he => ?_⟩
      interval_cases e
      · rw [zero_add, h1]; rfl
      · rw [add_comm, h2]; rfl
    · have : ¬ 0 < s c := by rw [h4]; exact lt_irrefl 0
      simp only [q, if_neg this]
      refine ⟨trivial, fun e he => ?_⟩
      interval_cases e
      · rw [zero_add, h1, h3]; rfl
      · rw [add_comm, h2, h4]; rfl
  obtain ⟨dst', r1, r2, r3⟩ := maxsumexp_run hk hd hs (fun j hj => (hx j hj).1) (fun j hj => (hx j hj).2) hqv
  refine ⟨dst', r1, ?_⟩
  have hw := maxsumexpCuda_works (src := src) (dst := dst) hm hn hk (fun i1 i2 j => x (i1 + m*(j + k*i2))) (fun i1 i2 => a (i1 + m*i2)) (fun i1 i2 => s (i1 + m*i2)) (by
    intro i1 i2 j h1 h2 hj
    have := cell3_lt h1 hj h2
    rw [show i2*(m*k) + i1 + j*m = i1 + m*(j + k*i2) by ring]
    exact ⟨Buf.rd_ok (hs ▸ this) (hx _ this).1, (hx _ this).2⟩) (by
    intro i1 i2 h1 h2
    have hc := cell2_lt h1 h2
    obtain ⟨g1, g2, g3⟩ := hq _ hc
    rw [show i1 + i2*m = i1 + m*i2 by ring]
    refine ⟨Buf.rd_ok (by omega) g1, Buf.rd_ok (by omega) g2, ?_⟩
    rcases g3 with g3 | ⟨-, g3⟩
    · exact g3.le
    · rw [g3])
  refine ⟨⟨hw.defined, hw.raceFree, hw.progress, fun st hr hf => ?_⟩, hw.finite⟩
  obtain ⟨p1, p2, -, p4⟩ := hw.result st hr hf
  refine ⟨p1, p2, fun c hc => ?_⟩
  obtain ⟨i1, i2, h1, h2, rfl⟩ : ∃ i1 i2, i1 < m ∧ i2 < n ∧ c = i1 + m*i2 :=
    ⟨c % m, c / m, Nat.mod_lt _ hm.1, Nat.div_lt_of_lt_mul hc, (Nat.mod_add_div c m).symm⟩
  obtain ⟨a', s', b1, b2, b3, b4⟩ := p4 i1 i2 h1 h2
  rw [show i1 + i2*m = i1 + m*i2 by ring] at b1 b2
  have hv := (hqv _ hc).1.add (Mse.valid_sum (range k) fun j => x (i1 + m*(j + k*i2)))
  obtain ⟨A, S, e1, e2, e3, e4⟩ := Mse.enc_expo hv
  have d1 := r3 0 i1 i2 (by decide) h1 h2
  have d2 := r3 1 i1 i2 (by decide) h1 h2
  rw [e1, zero_add] at d1
  rw [e2, add_comm 1] at d2
  have hkey : s' * Real.exp a' = S * Real.exp A := by
    rw [b4, e4, Mse.expo_add, Mse.expo_sum]
    congr 1
    obtain ⟨-, -, g3⟩ := hq _ hc
    rcases g3 with g3 | ⟨-, g3⟩
    · simp only [q, if_pos g3, Mse.expo]
    · have : ¬ 0 < s (i1 + m*i2) := by rw [g3]; exact lt_irrefl 0
      simp only [q, if_neg this, Mse.expo, g3, zero_mul]
  refine ⟨A, S, a', s', d1, d2, (Buf.rd_eq_ok b1).2, (Buf.rd_eq_ok b2).2, e3, b3, hkey, fun hS => ?_, fun v => ?_⟩
  · have hs' : 0 < s' := by
      have h0 : 0 < s' * Real.exp a' := by rw [hkey]; positivity
      exact pos_of_mul_pos_left h0 (Real.exp_pos _).le
    have := congrArg Real.log hkey
    rw [Real.log_mul hs'.ne' (Real.exp_pos _).ne', Real.log_mul hS.ne' (Real.exp_pos _).ne', Real.log_exp, Real.log_exp] at this
    linarith
  · rw [Real.exp_sub, Real.exp_sub, div_div, div_div, mul_comm (Real.exp a'), mul_comm (Real.exp A), hkey]

/-- The hypotheses are met: a slice with a masked element. -/
example : ∃ src dst : Buf XReal, src.size = 1*(2*1) ∧ dst.size = 2*(1*1) ∧ (∀ j, j < 1*(2*1) → ∃ v, src.data j = some v ∧ v.NumOrMask) ∧
    ∀ c, c < 1*1 → ∃ a s : ℝ, dst.data (2*c) = some (.fin a) ∧ dst.data (2*c + 1) = some (.fin s) ∧ (0 < s ∨ a = 0 ∧ s = 0) := by
  refine ⟨Buf.ofList [.fin 3, .ninf], Buf.ofList [.fin 1, .fin 2], rfl, rfl, fun j hj => ?_, fun c hc => ?_⟩
  · interval_cases j
    · exact ⟨_, rfl, .inr ⟨_, rfl⟩⟩
    · exact ⟨_, rfl, .inl rfl⟩
  · obtain rfl : c = 0 := by omega
    exact ⟨1, 2, rfl, rfl, .inl (by norm_num)⟩

end NNTile
