import Verif.Lib.CudaExec
import Verif.Lib.CudaFiberSum
import Verif.Lib.CudaNorm
import Verif.Lib.CudaRest
import Verif.Lib.CudaMse
import Verif.Lib.Softmax
import Mathlib.Tactic.NormNum
import Mathlib.Tactic.IntervalCases
import Mathlib.Tactic.Ring
import Mathlib.Tactic.Linarith
/-!
# C54: where GPU and CPU differ

"If the CPU version of a kernel succeeds, then the GPU version gives the same result, whatever the sizes and the scalars." This is false. C52, C53 and C55 prove it within certain bounds; here
it is shown that the bounds are needed:

* a launch with an invalid configuration executes nothing and its error is ignored: the output silently keeps its old contents;
* 32-bit thread indices overflow;
* `add_fiber` with `beta = 0` reads the output, which is not initialised then;
* `norm_slice` does not write the output of a fiber of zeroes;
* `softmax` has a data race if several indices are processed by one block;
* the pair of `maxsumexp` does not contain the maximum of the slice in some interleavings.
-/
namespace NNTile
open Finset
variable {α : Type} [FP α]

/-! ## Invalid configurations -/

/-- `sumprod_fiber` does nothing if both dimensions have at least 32 elements: a block of 2048 threads. -/
theorem C54_sumprodFiber_refuted {m n k : Nat} (hm : m < 2^31) (hn : n < 2^31) (hmn : 512 < min m 32 * min n 32) {alpha beta : ℝ} (src1 src2 dst : Buf ℝ) :
    (sumprodFiberCuda m n k alpha beta).Gives [src1, src2] dst dst := by
  refine Launch.gives_of_invalid ?_ _ _
  rintro ⟨-, -, -, -, -, -, -, -, -, -, -, -, h⟩
  rw [sumprodFiberCuda_threads hm hn] at h
  simp only [dimOf] at h
  rw [mul_assoc] at h
  omega

/-- The CPU computes a sum. -/
example : (512 < min 32 32 * min 32 32) ∧ ∃ src dst dst' : Buf ℝ, sumprodFiberKernel 32 32 1 1 src src 0 dst = .ok dst' ∧ dst' ≠ dst := by
  refine ⟨by decide, ⟨1024, fun _ => some 1⟩, ⟨1, fun _ => some 0⟩, ⟨1, fun i => if i = 0 then some 1024 else some 0⟩, ?_, fun h => ?_⟩
  · have e : forN 32 (fun i1 p => forN 32 (fun i0 p => do
        let x ← (⟨1024, fun _ => some 1⟩ : Buf ℝ).rd ((i1*1 + 0)*32 + i0)
        let y ← (⟨1024, fun _ => some 1⟩ : Buf ℝ).rd ((i1*1 + 0)*32 + i0)
        (.ok (p.1 + x * y, p.2) : M (ℝ × ℝ))) p) ((0 : ℝ), (0 : ℝ)) = .ok (1024, 0) := by
      have hrd : ∀ i1 i0, i1 < 32 → i0 < 32 → (⟨1024, fun _ => some 1⟩ : Buf ℝ).rd ((i1*1 + 0)*32 + i0) = .ok 1 := fun i1 i0 h1 h0 =>
        Buf.rd_ok (show (i1*1+0)*32 + i0 < 1024 by omega) rfl
      refine (plain_sum2 (x := fun _ _ => 1) (x' := fun _ _ => 1) hrd hrd).trans ?_
      norm_num
    simp only [sumprodFiberKernel]
    rw [forN_succ, show forN 0 _ _ = .ok _ from rfl, M.bind_ok, e, M.bind_ok]
    unfold storeSum
    rw [if_pos (by simp)]
    simp [Buf.wr]
  · have := congrFun (congrArg Buf.data h) 0
    norm_num at this

private theorem grid3_too_many {m n k tx ty tz : Nat} (hm : 0 < m ∧ m < 2^31) (hn : 0 < n ∧ n < 2^31) (hk : 0 < k ∧ k < 2^31) (ht : 0 < tx ∧ 0 < ty ∧ 0 < tz)
    (h : 65535 * ty < n ∨ 65535 * tz < k) (body : Nat → Nat → Nat → PM α Unit) (srcs : List (Buf α)) (dst : Buf α) :
    ∃ g, grid3Launch m n k tx ty tz body = .ok g ∧ g.Gives srcs dst dst := by
  have h1 := dimOf_pos hm.1 ht.1
  have h2 := dimOf_pos hn.1 ht.2.1
  have h3 := dimOf_pos hk.1 ht.2.2
  have b1 := blocks_le m _ hm.1 h1
  have b2 := blocks_le n _ hn.1 h2
  have b3 := blocks_le k _ hk.1 h3
  unfold grid3Launch
  simp only [dimOf_eq hm.2, dimOf_eq hn.2, dimOf_eq hk.2]
  rw [if_neg (by omega)]
  refine ⟨_, rfl, Launch.gives_of_invalid ?_ _ _⟩
  rw [uint32_eq (by omega), uint32_eq (by omega), uint32_eq (by omega)]
  rintro ⟨-, -, -, hy, -, hz, -⟩
  dsimp only at hy hz
  rcases h with h | h
  · rw [Nat.div_lt_iff_lt_mul h2] at hy
    have e : dimOf n ty ≤ ty := Nat.min_le_right _ _
    have e' : dimOf n ty ≤ n := Nat.min_le_left _ _
    rcases Nat.le_total ty n with h' | h'
    · rw [show dimOf n ty = ty from Nat.min_eq_right h'] at *; omega
    · omega
  · rw [Nat.div_lt_iff_lt_mul h3] at hz
    have e : dimOf k tz ≤ tz := Nat.min_le_right _ _
    rcases Nat.le_total tz k with h' | h'
    · rw [show dimOf k tz = tz from Nat.min_eq_right h'] at *; omega
    · omega

/-- With more than 65535 elements before or after the dimension of the fiber `add_fiber` does nothing. -/
theorem C54_addFiber_refuted {m n k batch : Nat} (hm : 0 < m ∧ m < 2^31) (hn : 0 < n ∧ n < 2^31) (hk : 0 < k ∧ k < 2^31) (h : 65535 < m ∨ 65535 < n) {alpha beta : α} (src dst : Buf α) :
    ∃ g, addFiberCuda m n k batch alpha beta = .ok g ∧ g.Gives [src] dst dst :=
  grid3_too_many hk hm hn (by decide) (by omega) _ _ _

/-- On CPU it does something: with one element after the dimension of the fiber, any number before it. -/
example (m : Nat) (hm : 0 < m) : ∃ src dst dst' : Buf ℝ, addFiberKernel m 1 1 1 1 src 0 dst = .ok dst' ∧ dst' ≠ dst := by
  have h : ∀ j, j ≤ m → forN j (fun i0 dst => (dst : Buf ℝ).wr (((0 + 0*1)*1 + 0)*m + i0) (1 * 1)) ⟨m, fun _ => some 0⟩ = .ok ⟨m, fun i => if i < j then some 1 else some 0⟩ := by
    intro j
    induction j with
    | zero => intro _; simp [forN]
    | succ j ih =>
      intro hj
      rw [forN_succ, ih (by omega), M.bind_ok]
      have e : ((0 + 0*1)*1 + 0)*m + j = j := by omega
      simp only [Buf.wr, e]
      rw [if_pos (by omega)]
      congr 2
      funext i
      by_cases h1 : i = j
      · simp [h1]
      · simp only [h1, if_false]
        by_cases h2 : i < j
        · rw [if_pos h2, if_pos (by omega)]
        · rw [if_neg h2, if_neg (by omega)]
  refine ⟨⟨1, fun _ => some 1⟩, ⟨m, fun _ => some 0⟩, ⟨m, fun i => if i < m then some 1 else some 0⟩, ?_, fun h' => ?_⟩
  · have h := h m le_rfl
    simp only [addFiberKernel]
    rw [forN_succ, show forN 0 _ _ = .ok _ from rfl, M.bind_ok, forN_succ, show forN 0 _ _ = .ok _ from rfl, M.bind_ok, Buf.rd_ok (v := 1) (by simp) rfl, M.bind_ok,
      forN_succ, show forN 0 _ _ = .ok _ from rfl, M.bind_ok, if_pos (by simp)]
    exact h
  · have := congrFun (congrArg Buf.data h') 0
    simp [hm] at this

/-- The same for `add_slice`, `add_slice3`, `prod_slice`, `prod_fiber`, `prod_fiber3` and `embedding` with very large dimensions. -/
theorem C54_slices_refuted {m n k : Nat} (hm : 0 < m ∧ m < 2^31) (hn : 0 < n ∧ n < 2^31) (hk : 0 < k ∧ k < 2^31) (h : 65535*8 < n ∨ 65535*16 < k) (alpha beta : α) (asIdx : α → Int)
    (k_size k_start : Nat) (srcs : List (Buf α)) (dst : Buf α) :
    (∃ g, addSliceCuda m n k alpha beta = .ok g ∧ g.Gives srcs dst dst) ∧ (∃ g, addSlice3Cuda m n k alpha beta = .ok g ∧ g.Gives srcs dst dst) ∧
    (∃ g, prodSliceCuda m n k alpha = .ok g ∧ g.Gives srcs dst dst) ∧ (∃ g, prodFiberCuda m n k alpha = .ok g ∧ g.Gives srcs dst dst) ∧
    (∃ g, prodFiber3Cuda m n k alpha = .ok g ∧ g.Gives srcs dst dst) ∧ ∃ g, embeddingCuda asIdx m n k_size k_start k = .ok g ∧ g.Gives srcs dst dst :=
  ⟨grid3_too_many hm hn hk (by decide) (by omega) _ _ _, grid3_too_many hm hn hk (by decide) (by omega) _ _ _, grid3_too_many hm hn hk (by decide) (by omega) _ _ _,
    grid3_too_many hm hn hk (by decide) (by omega) _ _ _, grid3_too_many hm hn hk (by decide) (by omega) _ _ _, grid3_too_many hm hn hk (by decide) (by omega) _ _ _⟩

/-- `mask_scalar` does nothing if there are more than 65535 columns, `embedding_backward` if there are more than 65535 indices in one of the directions. -/
theorem C54_mask_embedding_refuted {m n : Nat} (hm : m < 2^32) (hn : n < 2^32) (asBool : α → Bool) (asIdx : α → Int) (val : α) (k k_start k_size : Nat) (srcs : List (Buf α)) (dst : Buf α) :
    (65535 < n → (maskScalarCuda asBool m n val).Gives srcs dst dst) ∧ (65535 < m ∨ 65535 < n → (embeddingBackwardCuda asIdx m n k k_start k_size).Gives srcs dst dst) := by
  refine ⟨fun h => Launch.gives_of_invalid ?_ _ _, fun h => Launch.gives_of_invalid ?_ _ _⟩
  · rintro ⟨-, -, -, hy, -⟩
    simp only [maskScalarCuda, uint32_eq hn] at hy
    omega
  · rintro ⟨-, -, -, hy, -, hz, -⟩
    simp only [embeddingBackwardCuda, uint32_eq hm, uint32_eq hn] at hy hz
    omega

/-! ## Overflow of indices -/

private theorem ew_fails {bs n i : Nat} (hbs : bs = 256 ∨ bs = 32) (h1 : i < n) (h2 : n ≤ 2^35) (hi : i % bs = 0) (body : Nat → PM α Unit) (bufs : Nat → Buf α) (Post : (Nat → Buf α) → Prop)
    (h : (ewLaunch bs n body).body ⟨⟨i / bs, 0, 0⟩, ⟨0, 0, 0⟩⟩ = .ub) : ¬ (ewLaunch bs n body).Works bufs Post := by
  have hg : (ewLaunch bs n body).grid = ⟨(n + bs - 1) / bs, 1, 1⟩ := by
    simp only [ewLaunch]
    rw [uint32_eq]
    rw [Nat.div_lt_iff_lt_mul (by omega)]
    rcases hbs with rfl | rfl <;> omega
  have ht : (ewLaunch bs n body).threads = ⟨bs, 1, 1⟩ := rfl
  have hb1 : i / bs < (n + bs - 1) / bs := by
    rw [Nat.lt_div_iff_mul_lt (by omega)]
    rcases hbs with rfl | rfl <;> omega
  have hb2 : (n + bs - 1) / bs < 2^31 := by
    rw [Nat.div_lt_iff_lt_mul (by omega)]
    rcases hbs with rfl | rfl <;> omega
  refine Launch.not_works_of_fails Launch.Reach.refl (Launch.init_fails ?_ (t := ⟨⟨i / bs, 0, 0⟩, ⟨0, 0, 0⟩⟩) ?_ h)
  · unfold Launch.Valid
    rw [hg, ht]
    dsimp only
    rcases hbs with rfl | rfl <;> norm_num <;> omega
  · unfold Launch.Has
    rw [hg, ht]
    dsimp only
    rcases hbs with rfl | rfl <;> omega

/-- Element-wise kernels have undefined behaviour if there are more than `2^31` elements (up to the limit of a grid): the index of a thread becomes negative. -/
theorem C54_elementwise_refuted {bs n : Nat} (hbs : bs = 256 ∨ bs = 32) (h1 : 2^31 < n) (h2 : n ≤ 2^35) (body : Nat → PM α Unit) (bufs : Nat → Buf α) (Post : (Nat → Buf α) → Prop) :
    ¬ (ewLaunch bs n body).Works bufs Post := by
  refine ew_fails hbs h1 h2 (by rcases hbs with rfl | rfl <;> decide) body bufs Post ?_
  have e : gidInt 0 (2^31 / bs) bs = -2^31 := by rcases hbs with rfl | rfl <;> decide
  simp only [ewLaunch, e]
  rw [if_pos (by omega), if_pos (by decide)]

/-- For example `add` and `fill`. -/
theorem C54_add_refuted {n : Nat} (h1 : 2^31 < n) (h2 : n ≤ 2^35) (alpha beta : α) (bufs : Nat → Buf α) (Post : (Nat → Buf α) → Prop) :
    ¬ (addCuda n alpha beta).Works bufs Post ∧ ¬ (fillCuda n alpha).Works bufs Post :=
  ⟨C54_elementwise_refuted (.inl rfl) h1 h2 _ _ _, C54_elementwise_refuted (.inl rfl) h1 h2 _ _ _⟩

/-- `logsumexp` and `accumulate_maxsumexp` compute `2*i` in `int`: undefined behaviour for more than `2^30` pairs. -/
theorem C54_pairs_refuted {n : Nat} (h1 : 2^30 < n) (h2 : n ≤ 2^35) (bufs : Nat → Buf α) (Post : (Nat → Buf α) → Prop) :
    ¬ (logsumexpCuda n).Works bufs Post ∧ ¬ (accumulateMaxsumexpCuda n).Works bufs Post := by
  have e1 : gidInt 0 (2^30 / 32) 32 = ((2^30 : Nat) : Int) := by decide
  have e2 : gidInt 0 (2^30 / 256) 256 = ((2^30 : Nat) : Int) := by decide
  refine ⟨ew_fails (i := 2^30) (.inr rfl) h1 h2 (by decide) _ bufs Post ?_, ew_fails (i := 2^30) (.inl rfl) h1 h2 (by decide) _ bufs Post ?_⟩
  · simp only [ewLaunch, e1]
    rw [if_pos (by omega), if_neg (by omega)]
    rfl
  · simp only [ewLaunch, e2]
    rw [if_pos (by omega), if_neg (by omega)]
    rfl

/-! ## Uninitialised output -/

/-- With `beta = 0` the output of `add_fiber` need not be initialised: the CPU version does not read it, but the GPU version does. -/
theorem C54_addFiber_undefined_refuted : ∃ src dst dst' : Buf ℝ, addFiberKernel 1 1 1 1 1 src 0 dst = .ok dst' ∧
    ∃ g, addFiberCuda 1 1 1 1 (1 : ℝ) 0 = .ok g ∧ ∀ Post, ¬ g.Works (taskBufs dst [src]) Post := by
  refine ⟨⟨1, fun _ => some 1⟩, .undef 1, ⟨1, fun i => if i = 0 then some 1 else none⟩, ?_, ?_⟩
  · simp [addFiberKernel, forN, Buf.rd, Buf.wr, Buf.undef, bind, Except.bind]
  · refine ⟨_, rfl, fun Post => ?_⟩
    generalize hg : (Launch.mk _ _ _ _ : Launch ℝ) = g
    have hv : g.Valid := by rw [← hg]; decide
    have hs : g.start ⟨⟨0, 0, 0⟩, ⟨0, 0, 0⟩⟩ = .rd (.glob 1, 0) fun x => .rd (.glob 0, 0) fun y => .wr (.glob 0, 0) (0 * y + 1 * x) .done := by
      unfold Launch.start
      rw [if_pos ⟨hv, by rw [← hg]; decide⟩, ← hg]
      rfl
    obtain ⟨s, r1, r2, r3, -⟩ := Launch.Reach.refl (g := g) (bufs := taskBufs (.undef 1) [⟨1, fun _ => some 1⟩]) |>.access hs (m := g.mem _)
      (q := .rd (.glob 0, 0) fun y => .wr (.glob 0, 0) (0 * y + 1 * 1) .done) rfl
    have e : (s.prog ⟨⟨0, 0, 0⟩, ⟨0, 0, 0⟩⟩).step s.mem = some (.error (.ub "read of undefined memory")) := by
      rw [r3, r2]
      rfl
    exact Launch.not_works_of_fails r1 ⟨_, _, e⟩

/-- `norm_slice` with `beta = 0` does not write the output of a fiber of zeroes: if it was undefined, it stays so, while the CPU version writes zero. -/
theorem C54_normSlice_refuted {m n k : Nat} (hm : 0 < m ∧ m < 2^31) (hn : 0 < n ∧ n ≤ 8*65535) (hk : 0 < k ∧ k < 2^31) (alpha beta : ℝ) {src dst dst' : Buf ℝ}
    (h : normSliceKernel m n k alpha src beta dst = .ok dst') (hz : ∀ x, src.data x = some 0) : ∃ g, normSliceCuda m n k alpha beta = .ok g ∧ g.Gives [src] dst dst := by
  classical
  obtain ⟨g, h1, h2⟩ := normSliceCuda_gives' hm hn hk h
  refine ⟨g, h1, ?_⟩
  have e : dst = ⟨dst.size, fun x => if ∃ i1 i0, i1 < n ∧ i0 < m ∧ x = i1*m + i0 ∧ 0 < ∑ j ∈ range k, src.val (i1*(m*k) + i0 + j*m) ^ 2 then dst'.data x else dst.data x⟩ := by
    have hv : ∀ x, src.val x = 0 := fun x => by simp [Buf.val, hz]
    have : ∀ x, ¬ ∃ i1 i0, i1 < n ∧ i0 < m ∧ x = i1*m + i0 ∧ 0 < ∑ j ∈ range k, src.val (i1*(m*k) + i0 + j*m) ^ 2 := by
      rintro x ⟨i1, i0, -, -, -, hp⟩
      simp [hv] at hp
    simp only [this, if_false]
  rw [← e] at h2
  exact h2

/-- The CPU version writes zero. -/
example : normSliceKernel 1 1 2 (1 : ℝ) ⟨2, fun _ => some 0⟩ 0 (.undef 1) = .ok ⟨1, fun i => if i = 0 then some 0 else none⟩ := by
  norm_num [normSliceKernel, normStep, storeNorm, forN, Buf.rd, Buf.wr, Buf.undef, bind, Except.bind]

/-! ## Data race -/

omit [FP α] in
private theorem resume_sync {p k : Prog α} (h : p = .sync k) : p.resume = k := by rw [h]; rfl

/-- With `m = 65536` a block of `softmax` processes two indices one after another, and no barrier separates the last reading of `max` and `sum` for the first one from the initialization
for the second one: there is a data race, although the CPU version succeeds. -/
theorem C54_softmax_refuted (mse src dst : Buf ℝ) (h1 : ∀ i, i < 2*65536 → ∃ x, mse.rd i = .ok x) (h2 : ∀ i, i < 2*65536 → ∃ x, src.rd i = .ok x) (hd : dst.size = 2*65536) (alpha : ℝ)
    (Post : (Nat → Buf ℝ) → Prop) : ¬ (softmaxCuda 65536 1 2 alpha).Works (taskBufs dst [mse, src]) Post := by
  set g := softmaxCuda 65536 1 2 alpha with hg
  have hgr : g.grid = ⟨1, 32768, 1⟩ := rfl
  have hth : g.threads = ⟨32, 1, 1⟩ := rfl
  have hv : g.Valid := by
    unfold Launch.Valid
    rw [hgr, hth]
    decide
  have hhas : ∀ t : Tid, g.Has t ↔ t.blk.x < 1 ∧ t.blk.y < 32768 ∧ t.blk.z < 1 ∧ t.thr.x < 32 ∧ t.thr.y < 1 ∧ t.thr.z < 1 := by
    intro t
    unfold Launch.Has
    rw [hgr, hth]
  let b0 : Dim3 := ⟨0, 0, 0⟩
  let t0 : Tid := ⟨b0, ⟨0, 0, 0⟩⟩
  let t1 : Tid := ⟨b0, ⟨1, 0, 0⟩⟩
  have hst : ∀ t, g.Has t → (g.init (taskBufs dst [mse, src])).prog t = g.body t := by
    intro t ht
    show g.start t = _
    unfold Launch.start
    rw [if_pos ⟨hv, ht⟩]
  obtain ⟨x0, hx0⟩ := h1 0 (by decide)
  obtain ⟨x1, hx1⟩ := h1 1 (by decide)
  obtain ⟨x2, hx2⟩ := h1 2 (by decide)
  obtain ⟨y0, hy0⟩ := h2 0 (by decide)
  obtain ⟨y1, hy1⟩ := h2 65536 (by decide)
  have hsz : ((g.init (taskBufs dst [mse, src])).mem (.shared b0)).size = 2 := rfl
  have hsz0 : ((g.init (taskBufs dst [mse, src])).mem (.glob 0)).size = 2*65536 := hd
  -- the first thread initializes the shared memory
  obtain ⟨s, r, m1, p1, o1⟩ := Launch.Reach.refl (g := g) (bufs := taskBufs dst [mse, src]) |>.rd (hst t0 ((hhas _).2 (by decide))) (l := (.glob 1, 0)) rfl hx0
  obtain ⟨s', r, p2, o2, z2, v2, f2⟩ := r.wr p1 (l := (.shared b0, 0)) (v := x0) rfl (by rw [m1]; exact hsz.symm ▸ (by decide))
  simp only [m1] at z2 f2
  have oo := o1
  obtain ⟨s, r, m1, p1, o1⟩ := r.rd p2 (l := (.glob 1, 1)) rfl (v := x1) (by rw [f2 _ (by simp)]; exact hx1)
  obtain ⟨s', r, p3, o3, z3, v3, f3⟩ := r.wr p1 (l := (.shared b0, 1)) (v := x1) rfl (by rw [m1, z2]; exact hsz.symm ▸ (by decide))
  simp only [m1] at z3 f3
  -- all threads are at the barrier
  have ho : ∀ u, u ≠ t0 → s'.prog u = (g.init (taskBufs dst [mse, src])).prog u := fun u hu => by rw [o3 u hu, o1 u hu, o2 u hu]; exact oo u hu
  have hw : ∀ t : Tid, g.Has t → t.blk = b0 → t ≠ t0 → (g.body t).waits := by
    rintro ⟨b, ⟨x, y, z⟩⟩ ht hb hne
    obtain rfl : b = b0 := hb
    have h' := (hhas _).1 ht
    dsimp only at h'
    cases x with
    | zero =>
      obtain rfl : y = 0 := by omega
      obtain rfl : z = 0 := by omega
      exact absurd rfl hne
    | succ x => exact trivial
  obtain ⟨s2, r, m4, q4⟩ := r.barrier b0 (by
    intro t hb
    by_cases ht : t = t0
    · right; rw [ht, p3]; exact trivial
    · rw [ho t ht]
      by_cases hh : g.Has t
      · right; rw [hst t hh]; exact hw t hh hb ht
      · left
        show g.start t = _
        unfold Launch.start
        rw [if_neg fun h => hh h.2]) ⟨t0, rfl, by rw [p3]; exact trivial⟩
  have q0 := q4 t0 rfl
  have q1 := q4 t1 rfl
  rw [p3] at q0
  rw [ho t1 (by decide), hst t1 ((hhas _).2 (by decide))] at q1
  have e0 : strideCount t0.thr.x 2 32 = 1 := by decide
  have e1 : strideCount t1.thr.x 2 32 = 1 := by decide
  have q1 := q1.trans (resume_sync rfl)
  simp only [e0] at q0
  simp only [e1] at q1
  have fg : ∀ b i, s2.mem.rd (.glob b, i) = (g.init (taskBufs dst [mse, src])).mem.rd (.glob b, i) := fun b i => by rw [m4, f3 _ (by simp), f2 _ (by simp)]
  have hy0' : ∀ i, i = 0 → (g.init (taskBufs dst [mse, src])).mem.rd (.glob 2, i) = .ok y0 := by rintro _ rfl; exact hy0
  have hy1' : ∀ i, i = 65536 → (g.init (taskBufs dst [mse, src])).mem.rd (.glob 2, i) = .ok y1 := by rintro _ rfl; exact hy1
  have hx2' : ∀ i, i = 2 → (g.init (taskBufs dst [mse, src])).mem.rd (.glob 1, i) = .ok x2 := by rintro _ rfl; exact hx2
  have hlt : ∀ i, i = 0 → i < (s2.mem (.glob 0)).size := by rintro _ rfl; rw [m4, z3, z2, hsz0]; decide
  -- the first thread computes its element
  obtain ⟨s3, r, m5, p5, o5⟩ := r.rd q0 (v := y0) rfl ((fg 2 _).trans (hy0' _ (by simp [t0, b0])))
  obtain ⟨s4, r, m6, p6, o6⟩ := r.rd p5 (l := (.shared b0, 0)) (v := x0) rfl (by rw [m5, m4, f3 _ (by simp), v2])
  obtain ⟨s5, r, m7, p7, o7⟩ := r.rd p6 (l := (.shared b0, 1)) (v := x1) rfl (by rw [m6, m5, m4, v3])
  have hm7 : s5.mem = s2.mem := by rw [m7, m6, m5]
  obtain ⟨s6, r, p8, o8, z8, v8, f8⟩ := r.wr p7 rfl (by rw [hm7]; exact hlt _ (by simp [t0, b0]))
  have fg' : ∀ b i, b ≠ 0 → s6.mem.rd (.glob b, i) = s2.mem.rd (.glob b, i) := fun b i hb => by rw [f8 _ (by intro h; simp only [Prod.mk.injEq, Space.glob.injEq] at h; exact hb h.1), hm7]
  -- and starts with the second index
  obtain ⟨s7, r, m9, p9, o9⟩ := r.rd p8 (v := x2) rfl (((fg' 1 _ (by decide)).trans (fg 1 _)).trans (hx2' _ (by simp [t0, b0])))
  -- while the second thread is about to read the maximum
  have hq1 := (((((o9 t1 (by decide)).trans (o8 _ (by decide))).trans (o7 _ (by decide))).trans (o6 _ (by decide))).trans (o5 _ (by decide))).trans q1
  obtain ⟨s8, r, m10, p10, o10⟩ := r.rd hq1 (v := y1) rfl (by rw [m9]; exact ((fg' 2 _ (by decide)).trans (fg 2 _)).trans (hy1' _ (by simp [t1, b0])))
  refine Launch.not_works_of_race r ⟨t0, t1, (.shared b0, 0), .write, .read, by decide, ?_, ?_, by simp⟩
  · rw [o10 _ (by decide), p9]
    rfl
  · rw [p10]
    rfl

/-- The hypotheses are met, and the CPU version succeeds. -/
example : ∃ mse src dst dst' : Buf ℝ, (∀ i, i < 2*65536 → ∃ x, mse.rd i = .ok x) ∧ (∀ i, i < 2*65536 → ∃ x, src.rd i = .ok x) ∧ dst.size = 2*65536 ∧
    softmaxKernel 65536 1 2 mse src 1 dst = .ok dst' := by
  have hr : ∀ i, i < 2*65536 → (⟨2*65536, fun _ => some 1⟩ : Buf ℝ).rd i = .ok 1 := fun i hi => Buf.rd_ok hi rfl
  obtain ⟨d, h1, -⟩ := softmax_run (m := 65536) (n := 1) (k := 2) (alpha := (1 : ℝ)) (mse := ⟨2*65536, fun _ => some 1⟩) (src := ⟨2*65536, fun _ => some 1⟩) (o := ⟨2*65536, fun _ => some 1⟩)
    (w := fun _ => 1) (x := fun _ => 1) rfl rfl (fun _ _ => rfl) rfl (fun _ _ => rfl)
  exact ⟨⟨2*65536, fun _ => some 1⟩, ⟨2*65536, fun _ => some 1⟩, ⟨2*65536, fun _ => some 1⟩, d, fun i hi => ⟨1, hr i hi⟩, fun i hi => ⟨1, hr i hi⟩, rfl, h1⟩

/-! ## The maximum of `maxsumexp` -/

private abbrev mt0 : Tid := ⟨⟨0, 0, 0⟩, ⟨0, 0, 0⟩⟩
private abbrev mt1 : Tid := ⟨⟨0, 0, 0⟩, ⟨1, 0, 0⟩⟩
private abbrev mt2 : Tid := ⟨⟨0, 0, 0⟩, ⟨2, 0, 0⟩⟩
private noncomputable abbrev mg : Launch XReal := maxsumexpCuda 1 1 3
private noncomputable abbrev mbufs : Nat → Buf XReal := taskBufs (Buf.ofList [.fin 0, .fin 0]) [Buf.ofList [.fin 0, .fin 1, .fin 2]]

/-- Three threads are in the given states, the other ones have finished. -/
private def R3 (m : Mem XReal) (p0 p1 p2 : Prog XReal) : Prop :=
  ∃ s, mg.Reach mbufs s ∧ s.mem = m ∧ s.prog mt0 = p0 ∧ s.prog mt1 = p1 ∧ s.prog mt2 = p2 ∧ ∀ u, u ≠ mt0 → u ≠ mt1 → u ≠ mt2 → s.prog u = .done

private theorem R3.s0 {m m' : Mem XReal} {p0 p1 p2 q : Prog XReal} (h : R3 m p0 p1 p2) (hs : p0.step m = some (.ok (m', q))) : R3 m' q p1 p2 := by
  obtain ⟨s, r, h1, h2, h3, h4, h5⟩ := h
  obtain ⟨s', r, a1, a2, a3⟩ := r.access h2 (h1 ▸ hs)
  exact ⟨s', r, a1, a2, by rw [a3 _ (by decide), h3], by rw [a3 _ (by decide), h4], fun u u0 u1 u2 => by rw [a3 u u0, h5 u u0 u1 u2]⟩

private theorem R3.s1 {m m' : Mem XReal} {p0 p1 p2 q : Prog XReal} (h : R3 m p0 p1 p2) (hs : p1.step m = some (.ok (m', q))) : R3 m' p0 q p2 := by
  obtain ⟨s, r, h1, h2, h3, h4, h5⟩ := h
  obtain ⟨s', r, a1, a2, a3⟩ := r.access h3 (h1 ▸ hs)
  exact ⟨s', r, a1, by rw [a3 _ (by decide), h2], a2, by rw [a3 _ (by decide), h4], fun u u0 u1 u2 => by rw [a3 u u1, h5 u u0 u1 u2]⟩

private theorem R3.s2 {m m' : Mem XReal} {p0 p1 p2 q : Prog XReal} (h : R3 m p0 p1 p2) (hs : p2.step m = some (.ok (m', q))) : R3 m' p0 p1 q := by
  obtain ⟨s, r, h1, h2, h3, h4, h5⟩ := h
  obtain ⟨s', r, a1, a2, a3⟩ := r.access h4 (h1 ▸ hs)
  exact ⟨s', r, a1, by rw [a3 _ (by decide), h2], by rw [a3 _ (by decide), h3], a2, fun u u0 u1 u2 => by rw [a3 u u2, h5 u u0 u1 u2]⟩

private theorem R3.bar {m : Mem XReal} {p0 p1 p2 q0 q1 q2 : Prog XReal} (h : R3 m p0 p1 p2) (e0 : p0 = .sync q0) (e1 : p1 = .sync q1) (e2 : p2 = .sync q2) : R3 m q0 q1 q2 := by
  obtain ⟨s, r, h1, h2, h3, h4, h5⟩ := h
  rw [e0] at h2
  rw [e1] at h3
  rw [e2] at h4
  refine ⟨_, Relation.ReflTransGen.tail r (.barrier ⟨0, 0, 0⟩ (fun t _ => ?_) ⟨mt0, rfl, by rw [h2]; exact trivial⟩), h1, ?_, ?_, ?_, fun u u0 u1 u2 => ?_⟩
  · by_cases t0 : t = mt0
    · right; rw [t0, h2]; exact trivial
    by_cases t1 : t = mt1
    · right; rw [t1, h3]; exact trivial
    by_cases t2 : t = mt2
    · right; rw [t2, h4]; exact trivial
    exact .inl (h5 t t0 t1 t2)
  · dsimp only; rw [if_pos rfl, h2]; rfl
  · dsimp only; rw [if_pos rfl, h3]; rfl
  · dsimp only; rw [if_pos rfl, h4]; rfl
  · dsimp only
    rw [h5 u u0 u1 u2]
    split <;> rfl

private theorem step_rd {m : Mem α} {l : Loc} {k : α → Prog α} {v : α} (h : m.rd l = .ok v) : (Prog.rd l k).step m = some (.ok (m, k v)) := by
  show some (m.rd l >>= _) = _
  rw [h]; rfl
private theorem step_wr {m m' : Mem α} {l : Loc} {k : Prog α} {v : α} (h : m.wr l v = .ok m') : (Prog.wr l v k).step m = some (.ok (m', k)) := by
  show some (m.wr l v >>= _) = _
  rw [h]; rfl
private theorem step_add {m m' : Mem α} {l : Loc} {k : Prog α} {v x : α} (h : m.rd l = .ok x) (h' : m.wr l (x + v) = .ok m') : (Prog.atomicAdd l v k).step m = some (.ok (m', k)) := by
  show some (m.rd l >>= fun x => m.wr l (x + v) >>= _) = _
  rw [h]
  show some (m.wr l (x + v) >>= _) = _
  rw [h']; rfl
private theorem step_raise {m : Mem α} {l : Loc} {k : Prog α} {v x : α} (h : m.rd l = .ok x) (h' : FP.ltb x v = true) : (Prog.raise l v k).step m = some (.ok (m, .raiseWr l v k)) := by
  show some (m.rd l >>= fun x => .ok (m, if FP.ltb x v then .raiseWr l v k else k)) = _
  rw [h]
  show some (Except.ok (m, if FP.ltb x v then .raiseWr l v k else k)) = _
  rw [if_pos h']
private theorem step_skip {m : Mem α} {l : Loc} {k : Prog α} {v x : α} (h : m.rd l = .ok x) (h' : FP.ltb x v = false) : (Prog.raise l v k).step m = some (.ok (m, k)) := by
  show some (m.rd l >>= fun x => .ok (m, if FP.ltb x v then .raiseWr l v k else k)) = _
  rw [h]
  show some (Except.ok (m, if FP.ltb x v then .raiseWr l v k else k)) = _
  rw [if_neg (by rw [h']; decide)]
private theorem step_raiseWr {m m' : Mem α} {l : Loc} {k : Prog α} {v : α} (h : m.wr l v = .ok m') : (Prog.raiseWr l v k).step m = some (.ok (m', .raise l v k)) := by
  show some (m.wr l v >>= _) = _
  rw [h]; rfl

/-- Memory with the given shared values and pair. -/
private noncomputable def M3 (a b : Option XReal) (c d : XReal) : Mem XReal
  | .shared k => if k = ⟨0, 0, 0⟩ then ⟨2, fun i => if i = 0 then a else if i = 1 then b else none⟩ else .undef 2
  | .glob 0 => ⟨2, fun i => if i = 0 then some c else if i = 1 then some d else none⟩
  | .glob n => mbufs n

private theorem M3_upd {b : Option XReal} {a : Option XReal} {c d : XReal} {sp : Space} {i : Nat} {v : XReal} {m' : Mem XReal} (hi : i < (M3 a b c d sp).size)
    (h1 : ∀ sp', sp' ≠ sp → m' sp' = M3 a b c d sp') (h2 : m' sp = ⟨(M3 a b c d sp).size, fun j => if j = i then some v else (M3 a b c d sp).data j⟩) : (M3 a b c d).wr (sp, i) v = .ok m' := by
  unfold Mem.wr Buf.wr
  rw [if_pos hi]
  show Except.ok _ = _
  congr 1
  funext sp'
  by_cases hs : sp' = sp
  · subst hs
    rw [Function.update_self, h2]
  · rw [Function.update_of_ne hs, h1 _ hs]

private theorem M3_wr0 (a b : Option XReal) (c d v : XReal) : (M3 a b c d).wr (.shared ⟨0, 0, 0⟩, 0) v = .ok (M3 (some v) b c d) := by
  refine M3_upd (by simp [M3]) (fun sp h => ?_) ?_
  · rcases sp with (_ | n) | k
    · rfl
    · rfl
    · have : k ≠ ⟨0, 0, 0⟩ := fun e => h (by rw [e])
      simp [M3, this]
  · simp only [M3, if_true]
    congr 1
    funext j
    by_cases h0 : j = 0 <;> simp [h0]

private theorem M3_wr1 (a b : Option XReal) (c d v : XReal) : (M3 a b c d).wr (.shared ⟨0, 0, 0⟩, 1) v = .ok (M3 a (some v) c d) := by
  refine M3_upd (by simp [M3]) (fun sp h => ?_) ?_
  · rcases sp with (_ | n) | k
    · rfl
    · rfl
    · have : k ≠ ⟨0, 0, 0⟩ := fun e => h (by rw [e])
      simp [M3, this]
  · simp only [M3, if_true]
    congr 1
    funext j
    by_cases h0 : j = 0
    · simp [h0]
    · by_cases h1 : j = 1 <;> simp [h0, h1]

private theorem M3_out0 (a b : Option XReal) (c d v : XReal) : (M3 a b c d).wr (.glob 0, 0) v = .ok (M3 a b v d) := by
  refine M3_upd (by simp [M3]) (fun sp h => ?_) ?_
  · rcases sp with (_ | n) | k
    · exact absurd rfl h
    · rfl
    · rfl
  · simp only [M3]
    congr 1
    funext j
    by_cases h0 : j = 0 <;> simp [h0]

private theorem M3_out1 (a b : Option XReal) (c d v : XReal) : (M3 a b c d).wr (.glob 0, 1) v = .ok (M3 a b c v) := by
  refine M3_upd (by simp [M3]) (fun sp h => ?_) ?_
  · rcases sp with (_ | n) | k
    · exact absurd rfl h
    · rfl
    · rfl
  · simp only [M3]
    congr 1
    funext j
    by_cases h0 : j = 0
    · simp [h0]
    · by_cases h1 : j = 1 <;> simp [h0, h1]

private theorem fin_lt {a b : ℝ} (h : a < b) : FP.ltb (XReal.fin a) (.fin b) = true := (XReal.ltb_fin a b).2 h
private theorem fin_not_lt {a b : ℝ} (h : ¬ a < b) : FP.ltb (XReal.fin a) (.fin b) = false := by
  rw [Bool.eq_false_iff]
  exact fun h' => h ((XReal.ltb_fin a b).1 h')

private theorem add_exp (c a b : ℝ) : XReal.fin c + (1 : XReal) * FP.exp (XReal.fin a - .fin b) = .fin (c + Real.exp (a - b)) := by simp

/-- There is an interleaving after which the first element of the pair of `maxsumexp` is not the maximum of the slice `(0, 1, 2)`, although it always is on CPU: thread 1 sees the initial maximum
0, thread 2 raises it to 2, then thread 1 lowers it to 1. (The sum fits to that maximum, see C55.) -/
theorem C54_maxsumexp_refuted : ∃ s, (maxsumexpCuda 1 1 3).Reach (taskBufs (Buf.ofList [.fin 0, .fin 0]) [Buf.ofList [.fin 0, .fin 1, .fin 2]]) s ∧ s.Final ∧
    (s.mem (.glob 0)).rd 0 = .ok (.fin 1 : XReal) := by
  have hv : mg.Valid := perBlock_valid (by decide) (by decide)
  have hhas : ∀ {t : Tid}, mg.Has t ↔ t.blk.x = 0 ∧ t.blk.y < 1 ∧ t.blk.z < 1 ∧ t.thr.x < 32 ∧ t.thr.y = 0 ∧ t.thr.z = 0 := perBlock_has (by decide) (by decide)
  have hst : ∀ t, mg.Has t → mg.start t = mg.body t := fun t ht => if_pos ⟨hv, ht⟩
  have h : R3 (M3 none none (.fin 0) (.fin 0)) (mg.body mt0) (mg.body mt1) (mg.body mt2) := by
    refine ⟨_, .refl, ?_, hst mt0 (hhas.2 (by decide)), hst mt1 (hhas.2 (by decide)), hst mt2 (hhas.2 (by decide)), fun u u0 u1 u2 => ?_⟩
    · funext sp
      rcases sp with (_ | n) | k
      · show Buf.ofList [XReal.fin 0, XReal.fin 0] = _
        simp only [Buf.ofList, M3]
        congr 1
        funext j
        rcases j with _ | _ | j <;> simp
      · rfl
      · show Buf.undef 2 = _
        simp only [M3]
        split
        · simp only [Buf.undef]
          congr 1
          funext j
          simp
        · rfl
    · show mg.start u = _
      by_cases hu : mg.Has u
      · rw [hst u hu]
        obtain ⟨a1, a2, a3, a4, a5, a6⟩ := hhas.1 hu
        rcases u with ⟨⟨bx, bY, bz⟩, ⟨x, y, z⟩⟩
        dsimp only at *
        obtain rfl : bx = 0 := a1
        obtain rfl : bY = 0 := by omega
        obtain rfl : bz = 0 := by omega
        subst a5 a6
        have : ¬ x < 3 := by
          intro hx
          interval_cases x
          · exact u0 rfl
          · exact u1 rfl
          · exact u2 rfl
        show (if decide (x < 3) = true then _ else Prog.done) = _
        rw [if_neg (by simpa using this)]
      · exact if_neg fun h => hu h.2
  -- the first phase
  have h := h.s0 (step_rd (v := .fin 0) rfl)
  have h := h.s0 (step_wr (M3_wr0 _ _ _ _ _))
  have h := h.s0 (step_wr (M3_wr1 _ _ _ _ _))
  have h := h.s1 (step_rd (v := .fin 1) rfl)
  have h := h.s2 (step_rd (v := .fin 2) rfl)
  have h := h.bar rfl rfl rfl
  -- the maximum
  have h := h.s1 (step_raise (x := .fin 0) rfl (fin_lt (b := 1) (by norm_num)))
  have h := h.s2 (step_raise (x := .fin 0) rfl (fin_lt (b := 2) (by norm_num)))
  have h := h.s2 (step_raiseWr (M3_wr0 _ _ _ _ _))
  have h := h.s2 (step_skip (x := .fin 2) rfl (fin_not_lt (b := 2) (by norm_num)))
  have h := h.s1 (step_raiseWr (M3_wr0 _ _ _ _ _))
  have h := h.s1 (step_skip (x := .fin 1) rfl (fin_not_lt (b := 1) (by norm_num)))
  have h := h.s0 (step_skip (x := .fin 1) rfl (fin_not_lt (b := 0) (by norm_num)))
  have h := h.bar rfl rfl rfl
  -- the sum
  have h := h.s0 (step_rd (v := .fin 1) rfl)
  have h := h.s0 (step_add (x := .fin 0) rfl ((congrArg (Mem.wr _ _) (add_exp 0 0 1)).trans (M3_wr1 _ _ _ _ _)))
  have h := h.s1 (step_rd (v := .fin 1) rfl)
  have h := h.s1 (step_add (x := .fin _) rfl ((congrArg (Mem.wr _ _) (add_exp _ 1 1)).trans (M3_wr1 _ _ _ _ _)))
  have h := h.s2 (step_rd (v := .fin 1) rfl)
  have h := h.s2 (step_add (x := .fin _) rfl ((congrArg (Mem.wr _ _) (add_exp _ 2 1)).trans (M3_wr1 _ _ _ _ _)))
  have h := h.bar rfl rfl rfl
  -- the result
  have hr : 0 < 0 + Real.exp (0 - 1) + Real.exp (1 - 1) + Real.exp (2 - 1) := by positivity
  generalize 0 + Real.exp (0 - 1) + Real.exp (1 - 1) + Real.exp (2 - 1) = r at h hr
  have h := h.s0 (step_rd (v := .fin r) rfl)
  beta_reduce at h
  rw [if_pos (show FP.ltb (0 : XReal) (.fin r) = true from fin_lt hr)] at h
  have h := h.s0 (step_rd (v := .fin 1) rfl)
  have h := h.s0 (step_rd (v := .fin r) rfl)
  have h := h.s0 (step_rd (v := .fin 0) rfl)
  beta_reduce at h
  rw [if_pos (show FP.eqb (XReal.fin 0) (0 : XReal) = true from (XReal.eqb_fin 0 0).2 rfl)] at h
  have h := h.s0 (step_wr (M3_out0 _ _ _ _ _))
  have h := h.s0 (step_wr (M3_out1 _ _ _ _ _))
  obtain ⟨s, r, h1, h2, h3, h4, h5⟩ := h
  refine ⟨s, r, fun t => ?_, ?_⟩
  · by_cases t0 : t = mt0
    · rw [t0, h2]
    by_cases t1 : t = mt1
    · rw [t1, h3]; rfl
    by_cases t2 : t = mt2
    · rw [t2, h4]; rfl
    exact h5 t t0 t1 t2
  · rw [h1]
    rfl

/-- On CPU the first element is the maximum. -/
example : ∃ d, maxsumexpKernel 1 1 3 (Buf.ofList [.fin 0, .fin 1, .fin 2]) (Buf.ofList [.fin 0, .fin 0]) = .ok d ∧ d.rd 0 = .ok (.fin 2 : XReal) := by
  obtain ⟨b, hb, hbs, h⟩ := maxsumexp_run (m := 1) (n := 1) (k := 3) (src := Buf.ofList [.fin 0, .fin 1, .fin 2]) (o := Buf.ofList [.fin 0, .fin 0])
    (x := fun j => .fin j) (q := fun _ => .empty) (by decide) rfl rfl (fun j hj => by
      have hj : j < 3 := by omega
      interval_cases j <;> simp [Buf.ofList]) (fun j _ => .inr ⟨_, rfl⟩) (fun c hc => ⟨trivial, fun e he => by
      obtain rfl : c = 0 := by omega
      interval_cases e <;> simp [Buf.ofList, Mse.enc]⟩)
  refine ⟨b, hb, ?_⟩
  have h := h 0 0 0 (by decide) (by decide) (by decide)
  simp only [Finset.sum_range_succ, Finset.sum_range_zero, Mse.of, Nat.mul_zero, Nat.zero_add, Nat.one_mul, Nat.add_zero] at h
  unfold Buf.rd
  rw [if_pos (by rw [hbs]; decide), h]
  rw [zero_add, Mse.add_eq, Mse.add_eq, Mse.add_eq, Mse.add_some, Mse.add_some]
  show Except.ok (XReal.fin _) = _
  norm_num

/-- What is true: within the bounds the result is the same. (C52, C53 and C55 have this for all kernels; here three whose bounds are sharp by the theorems above.) -/
theorem C54_add_partial {n : Nat} (hn : n ≤ 2^31) {alpha beta : α} {src dst dst' : Buf α} (h : addKernel n alpha src beta dst = .ok dst') :
    (addCuda n alpha beta : Launch α).Gives [src] dst dst' :=
  addCuda_gives hn h

theorem C54_sumprodFiber_partial {m n k : Nat} (hm : 0 < m ∧ m < 2^31) (hn : 0 < n ∧ n < 2^31) (hmn : min m 32 * min n 32 ≤ 512) (hk : 0 < k ∧ k < 2^31) {alpha beta : ℝ}
    {src1 src2 dst dst' : Buf ℝ} (h : sumprodFiberKernel m n k alpha src1 src2 beta dst = .ok dst') : (sumprodFiberCuda m n k alpha beta).Gives [src1, src2] dst dst' :=
  sumprodFiberCuda_gives hm hn hmn hk h

theorem C54_normSlice_partial {m n k : Nat} (hm : 0 < m ∧ m < 2^31) (hn : 0 < n ∧ n ≤ 8*65535) (hk : 0 < k ∧ k < 2^31) {alpha beta : ℝ} {src dst dst' : Buf ℝ}
    (h : normSliceKernel m n k alpha src beta dst = .ok dst') (hne : ∀ i1 i0, i1 < n → i0 < m → ∃ j, j < k ∧ src.data (i1*(m*k) + i0 + j*m) ≠ some 0) :
    ∃ g, normSliceCuda m n k alpha beta = .ok g ∧ g.Gives [src] dst dst' :=
  normSliceCuda_gives hm hn hk h hne

end NNTile
