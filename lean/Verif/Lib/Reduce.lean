import Verif.Model.Reduce
import Verif.Lib.Box
import Verif.Lib.Fiber
import Verif.Lib.Slice
import Verif.Lib.RealFP
/-! Lemmas about reductions. -/
namespace NNTile
open Finset
variable {α : Type}

/-! ### Tasks in a sequence accumulating into a tile -/

theorem foldBuf_flatMap_inv {s : Store α} {N : Nat} {gt : Nat → List (Task1 α)} {q : Task1 α → Bool} {b : Buf α} (Inv : Nat → Buf α → Prop)
    (h0 : Inv 0 b) (hstep : ∀ i, i < N → ∀ c, Inv i c → ∃ c', foldBuf s ((gt i).filter q) c = .ok c' ∧ Inv (i+1) c') :
    ∃ b', foldBuf s (((List.range N).flatMap gt).filter q) b = .ok b' ∧ Inv N b' := by
  induction N with
  | zero => exact ⟨b, rfl, h0⟩
  | succ N ih =>
    obtain ⟨c, e, hc⟩ := ih (fun i hi => hstep i (by omega))
    obtain ⟨c', e', hc'⟩ := hstep N (by omega) c hc
    refine ⟨c', ?_, hc'⟩
    rw [List.range_succ, List.flatMap_append, List.filter_append, foldBuf_append, e, M.bind_ok]
    simpa using e'

theorem foldBuf_range_inv {s : Store α} {N : Nat} {task : Nat → Task1 α} {b : Buf α} (Inv : Nat → Buf α → Prop)
    (h0 : Inv 0 b) (hstep : ∀ i, i < N → ∀ c, Inv i c → ∃ c', (task i).fn ((task i).reads.map s) ((task i).inp c) = .ok c' ∧ Inv (i+1) c') :
    ∃ b', foldBuf s ((List.range N).flatMap (fun i => [task i])) b = .ok b' ∧ Inv N b' := by
  have := foldBuf_flatMap_inv (s := s) (N := N) (gt := fun i => [task i]) (q := fun _ => true) (b := b) Inv h0 (by
    intro i hi c hc
    obtain ⟨c', e, h'⟩ := hstep i hi c hc
    exact ⟨c', by simpa [foldBuf_single] using e, h'⟩)
  rwa [List.filter_true] at this

/-! ### Kernels over the reals -/

theorem kahan_real (v : ℝ) (x : ℝ) : kahan v (x, 0) = (x + v, 0) := by
  simp only [kahan]
  ext <;> simp

/-- Kahan summation adds up. -/
theorem kahan_sum {k : Nat} {rd : Nat → M ℝ} {x : Nat → ℝ} (x0 : ℝ) (h : ∀ i, i < k → rd i = .ok (x i)) :
    forN k (fun i p => rd i >>= fun v => (.ok (kahan v p) : M (ℝ × ℝ))) (x0, (0 : ℝ)) = .ok (x0 + ∑ i ∈ range k, x i, 0) := by
  induction k with
  | zero => simp [forN]
  | succ k ih =>
    rw [forN_succ, ih (fun i hi => h i (by omega)), M.bind_ok, h k (by omega), M.bind_ok, kahan_real, sum_range_succ, add_assoc]

theorem kahan_sum2 {n m : Nat} {rd : Nat → Nat → M ℝ} {x : Nat → Nat → ℝ} (h : ∀ i1 i0, i1 < n → i0 < m → rd i1 i0 = .ok (x i1 i0)) :
    forN n (fun i1 p => forN m (fun i0 p => rd i1 i0 >>= fun v => (.ok (kahan v p) : M (ℝ × ℝ))) p) ((0 : ℝ), (0 : ℝ))
      = .ok (∑ i1 ∈ range n, ∑ i0 ∈ range m, x i1 i0, 0) := by
  induction n with
  | zero => simp [forN]
  | succ n ih =>
    rw [forN_succ, ih (fun i1 i0 hi => h i1 i0 (by omega)), M.bind_ok, kahan_sum _ (fun i0 h0 => h n i0 (by omega) h0), sum_range_succ]

theorem plain_sum2 {n m : Nat} {rd rd' : Nat → Nat → M ℝ} {x x' : Nat → Nat → ℝ} (h : ∀ i1 i0, i1 < n → i0 < m → rd i1 i0 = .ok (x i1 i0))
    (h' : ∀ i1 i0, i1 < n → i0 < m → rd' i1 i0 = .ok (x' i1 i0)) :
    forN n (fun i1 p => forN m (fun i0 p => rd i1 i0 >>= fun v => rd' i1 i0 >>= fun w => (.ok (p.1 + v * w, p.2) : M (ℝ × ℝ))) p) ((0 : ℝ), (0 : ℝ))
      = .ok (∑ i1 ∈ range n, ∑ i0 ∈ range m, x i1 i0 * x' i1 i0, 0) := by
  have inner : ∀ i1, i1 < n → ∀ x0 : ℝ, ∀ m', m' ≤ m → forN m' (fun i0 p => rd i1 i0 >>= fun v => rd' i1 i0 >>= fun w => (.ok (p.1 + v * w, p.2) : M (ℝ × ℝ))) (x0, (0 : ℝ))
      = .ok (x0 + ∑ i0 ∈ range m', x i1 i0 * x' i1 i0, 0) := by
    intro i1 h1 x0 m'
    induction m' with
    | zero => intro _; simp [forN]
    | succ m' ih =>
      intro hm
      rw [forN_succ, ih (by omega), M.bind_ok, h i1 m' h1 (by omega), M.bind_ok, h' i1 m' h1 (by omega), M.bind_ok, sum_range_succ, ← add_assoc]
  have outer : ∀ n', n' ≤ n → forN n' (fun i1 p => forN m (fun i0 p => rd i1 i0 >>= fun v => rd' i1 i0 >>= fun w => (.ok (p.1 + v * w, p.2) : M (ℝ × ℝ))) p) ((0 : ℝ), (0 : ℝ))
      = .ok (∑ i1 ∈ range n', ∑ i0 ∈ range m, x i1 i0 * x' i1 i0, 0) := by
    intro n'
    induction n' with
    | zero => intro _; simp [forN]
    | succ n' ih =>
      intro hn
      rw [forN_succ, ih (by omega), M.bind_ok, inner n' (by omega) _ m le_rfl, sum_range_succ]
  exact outer n le_rfl

theorem storeSum_real {alpha beta S : ℝ} {i : Nat} {d : Buf ℝ} {y : ℝ} (hi : i < d.size) (hy : beta ≠ 0 → d.data i = some y) :
    storeSum alpha beta i (S, 0) d = .ok (d.put i (beta * y + alpha * S)) := by
  unfold storeSum
  by_cases hb : beta = 0
  · rw [if_pos (by simpa using hb), Buf.wr_put hi, hb, zero_mul, zero_add]
  · rw [if_neg (by simpa using hb), Buf.rd_ok hi (hy hb), M.bind_ok, Buf.wr_put hi, mul_zero, sub_zero]

/-- Two nested loops, each step setting one cell. -/
theorem forN2_puts {m n : Nat} {o : Buf α} {body : Nat → Nat → Buf α → M (Buf α)} (ho : o.size = m * n) (v : Nat → Nat → α)
    (hbody : ∀ i2 i1, i2 < n → i1 < m → ∀ d : Buf α, i1 + m * i2 < d.size → d.data (i1 + m * i2) = o.data (i1 + m * i2) →
      body i2 i1 d = .ok (d.put (i1 + m * i2) (v i1 i2))) :
    ∃ b', forN n (fun i2 d => forN m (fun i1 d => body i2 i1 d) d) o = .ok b' ∧ b'.size = o.size ∧
      ∀ i1 i2, i1 < m → i2 < n → b'.data (i1 + m * i2) = some (v i1 i2) := by
  have key := Puts.forN (o := o) (n := n) (f := fun i2 d => forN m (fun i1 d => body i2 i1 d) d)
    (P := fun i2 c => ∃ i1, i1 < m ∧ c = i1 + m * i2) (v := fun c => v (c % m) (c / m))
    (by
      intro i2 h2
      apply Puts.forN (f := fun i1 d => body i2 i1 d) (P := fun i1 c => c = i1 + m * i2)
      · intro i1 h1
        apply Puts.step
        · rw [ho]; exact cell2_lt h1 h2
        · intro d hd he
          rw [hbody i2 i1 h2 h1 d hd he, cell2_mod h1, cell2_div h1]
      · rintro i j hij hj c rfl h'
        have := cell2_inj (by omega) hj h'
        omega)
    (by
      rintro i j hij hj c ⟨i1, h1, rfl⟩ ⟨j1, h1', h'⟩
      have := cell2_inj h1 h1' h'
      omega)
  obtain ⟨b', e, z, a, -⟩ := key.run
  refine ⟨b', e, z, fun i1 i2 h1 h2 => ?_⟩
  rw [a _ ⟨i2, h2, i1, h1, rfl⟩, cell2_mod h1, cell2_div h1]

theorem sumSlice_run {m n k : Nat} {alpha beta : ℝ} {src o : Buf ℝ} {x y : Nat → ℝ} (ho : o.size = m * n) (hs : src.size = m * (k * n))
    (hx : ∀ j, j < m * (k * n) → src.data j = some (x j)) (hy : beta ≠ 0 → ∀ j, j < m * n → o.data j = some (y j)) :
    ∃ b', sumSliceKernel m n k alpha src beta o = .ok b' ∧ b'.size = o.size ∧ ∀ i1 i2, i1 < m → i2 < n →
      b'.data (i1 + m * i2) = some (beta * y (i1 + m * i2) + alpha * ∑ i0 ∈ range k, x (i1 + m * (i0 + k * i2))) := by
  unfold sumSliceKernel
  refine forN2_puts ho (fun i1 i2 => beta * y (i1 + m * i2) + alpha * ∑ i0 ∈ range k, x (i1 + m * (i0 + k * i2))) ?_
  intro i2 i1 h2 h1 d hd he
  rw [kahan_sum (x := fun i0 => x (i1 + m * (i0 + k * i2))) 0 (by
    intro i0 h0
    rw [pos3]
    exact Buf.rd_ok (hs ▸ cell3_lt h1 h0 h2) (hx _ (cell3_lt h1 h0 h2))), M.bind_ok, pos2, zero_add,
    storeSum_real hd (fun hb => he.trans (hy hb _ (cell2_lt h1 h2)))]

theorem sumprodSlice_run {m n k : Nat} {alpha beta : ℝ} {src src2 o : Buf ℝ} {x x' y : Nat → ℝ} (ho : o.size = m * n) (hs : src.size = m * (k * n))
    (hx : ∀ j, j < m * (k * n) → src.data j = some (x j)) (hs2 : src2.size = m * (k * n)) (hx2 : ∀ j, j < m * (k * n) → src2.data j = some (x' j))
    (hy : beta ≠ 0 → ∀ j, j < m * n → o.data j = some (y j)) :
    ∃ b', sumprodSliceKernel m n k alpha src src2 beta o = .ok b' ∧ b'.size = o.size ∧ ∀ i1 i2, i1 < m → i2 < n →
      b'.data (i1 + m * i2) = some (beta * y (i1 + m * i2) + alpha * ∑ i0 ∈ range k, x (i1 + m * (i0 + k * i2)) * x' (i1 + m * (i0 + k * i2))) := by
  unfold sumprodSliceKernel
  refine forN2_puts ho (fun i1 i2 => beta * y (i1 + m * i2) + alpha * ∑ i0 ∈ range k, x (i1 + m * (i0 + k * i2)) * x' (i1 + m * (i0 + k * i2))) ?_
  intro i2 i1 h2 h1 d hd he
  have e := kahan_sum (k := k) (rd := fun i0 => src.rd (i2*(m*k) + i1 + i0*m) >>= fun u => src2.rd (i2*(m*k) + i1 + i0*m) >>= fun w => .ok (u * w))
    (x := fun i0 => x (i1 + m * (i0 + k * i2)) * x' (i1 + m * (i0 + k * i2))) 0 (by
    intro i0 h0
    rw [pos3, Buf.rd_ok (hs ▸ cell3_lt h1 h0 h2) (hx _ (cell3_lt h1 h0 h2)), M.bind_ok,
      Buf.rd_ok (hs2 ▸ cell3_lt h1 h0 h2) (hx2 _ (cell3_lt h1 h0 h2)), M.bind_ok])
  have e2 : forN k (fun i0 p => src.rd (i2*(m*k) + i1 + i0*m) >>= fun u => src2.rd (i2*(m*k) + i1 + i0*m) >>= fun w => (.ok (kahan (u * w) p) : M (ℝ × ℝ))) ((0:ℝ), (0:ℝ))
      = .ok (0 + ∑ i0 ∈ range k, x (i1 + m * (i0 + k * i2)) * x' (i1 + m * (i0 + k * i2)), 0) := by
    rw [← e]
    apply forN_congr
    intro i0 _ p
    cases src.rd (i2*(m*k) + i1 + i0*m) with
    | error e => rfl
    | ok u => cases src2.rd (i2*(m*k) + i1 + i0*m) <;> rfl
  rw [e2, M.bind_ok, pos2, zero_add, storeSum_real hd (fun hb => he.trans (hy hb _ (cell2_lt h1 h2)))]

/-! ### Norms -/

/-- Invariant of the accumulation of a norm with sum of squares `q`. -/
structure NormInv (p : NormAcc ℝ) (q : ℝ) : Prop where
  max_nonneg : 0 ≤ p.max
  c : p.c = 0
  ssq_nonneg : 0 ≤ p.ssq
  eq : p.max ^ 2 * p.ssq = q

theorem normStep_real {p : NormAcc ℝ} {q x : ℝ} (h : NormInv p q) : NormInv (normStep x p) (q + x ^ 2) := by
  obtain ⟨h1, h2, h3, h4⟩ := h
  simp only [normStep, fabs_real]
  by_cases hx : x = 0
  · subst hx
    rw [if_neg (by simp)]
    exact ⟨h1, h2, h3, by simpa using h4⟩
  · have hpos : 0 < |x| := abs_pos.2 hx
    rw [if_pos (by simpa using hpos)]
    by_cases hge : FP.geb p.max |x| = true
    · rw [if_pos hge]
      have hle : |x| ≤ p.max := by
        simp only [FP.geb, Bool.or_eq_true, ltb_real, eqb_real] at hge
        rcases hge with h | h
        · exact h.le
        · exact h.ge
      have hm : 0 < p.max := lt_of_lt_of_le hpos hle
      refine ⟨h1, ?_, ?_, ?_⟩
      · simp only [h2]; ring
      · simp only [h2, sub_zero]; positivity
      · simp only [h2, sub_zero]
        rw [← h4, mul_add]
        congr 1
        rw [← sq_abs x]
        field_simp
    · rw [if_neg hge]
      refine ⟨hpos.le, ?_, ?_, ?_⟩
      · simp only [h2]; ring
      · simp only [h2, zero_mul, sub_zero]; positivity
      · simp only [h2, zero_mul, sub_zero]
        rw [← h4, ← sq_abs x]
        field_simp

theorem normFold_real {k : Nat} {rd : Nat → M ℝ} {x : Nat → ℝ} (h : ∀ i, i < k → rd i = .ok (x i)) :
    ∃ p, forN k (fun i p => rd i >>= fun v => (.ok (normStep v p) : M (NormAcc ℝ))) (⟨0, 0, 0⟩ : NormAcc ℝ) = .ok p ∧
      NormInv p (∑ i ∈ range k, x i ^ 2) := by
  induction k with
  | zero => exact ⟨⟨0, 0, 0⟩, rfl, ⟨le_rfl, rfl, le_rfl, by simp⟩⟩
  | succ k ih =>
    obtain ⟨p, e, hp⟩ := ih (fun i hi => h i (by omega))
    refine ⟨normStep (x k) p, ?_, ?_⟩
    · rw [forN_succ, e, M.bind_ok, h k (by omega), M.bind_ok]
    · rw [sum_range_succ]; exact normStep_real hp

theorem storeNorm_real {alpha beta q : ℝ} {p : NormAcc ℝ} {i : Nat} {d : Buf ℝ} {y : ℝ} (hp : NormInv p q) (hi : i < d.size)
    (hy : beta ≠ 0 → d.data i = some y) :
    storeNorm |alpha| beta i p d = .ok (d.put i (Real.sqrt ((beta * y) ^ 2 + alpha ^ 2 * q))) := by
  obtain ⟨h1, h2, h3, h4⟩ := hp
  have hM : 0 ≤ p.max * |alpha| := mul_nonneg h1 (abs_nonneg _)
  have hMq : (p.max * |alpha|) ^ 2 * p.ssq = alpha ^ 2 * q := by rw [← h4, mul_pow, sq_abs]; ring
  have key : ∀ A B : ℝ, 0 ≤ A → A * Real.sqrt B = Real.sqrt (A ^ 2 * B) := by
    intro A B hA
    rw [Real.sqrt_mul (by positivity), Real.sqrt_sq hA]
  unfold storeNorm
  by_cases hb : beta = 0
  · subst hb
    simp only [show FP.eqb (0:ℝ) 0 = true by simp, if_true, sqrt_real]
    rw [Buf.wr_put hi, key _ _ hM, hMq]
    norm_num
  · have hz : FP.eqb beta 0 = false := by simpa using hb
    simp only [hz, Bool.false_eq_true, if_false, sqrt_real, fabs_real]
    rw [Buf.rd_ok hi (hy hb), M.bind_ok]
    by_cases hm : 0 < p.max * |alpha|
    · rw [if_pos (by simpa using hm)]
      by_cases hge : FP.geb (p.max * |alpha|) |beta * y| = true
      · rw [if_pos hge, Buf.wr_put hi, key _ _ hM, h2]
        congr 3
        rw [sub_zero, mul_add, hMq, ← sq_abs (beta * y)]
        have hne := hm.ne'
        generalize p.max * |alpha| = A at hne ⊢
        field_simp
      · have hlt : 0 < |beta * y| := by
          by_contra hcon
          have : |beta * y| = 0 := le_antisymm (not_lt.1 hcon) (abs_nonneg _)
          rw [this] at hge
          simp [FP.geb, hm] at hge
        rw [if_neg hge, Buf.wr_put hi, key _ _ (abs_nonneg _), h2]
        congr 3
        rw [zero_mul, sub_zero, mul_add, mul_one, sq_abs, ← hMq]
        congr 1
        have : |beta * y| ≠ 0 := hlt.ne'
        rw [← sq_abs (beta * y)]
        field_simp
    · rw [if_neg (by simpa using hm), Buf.wr_put hi]
      have h0 : p.max * |alpha| = 0 := le_antisymm (not_lt.1 hm) hM
      rw [← hMq, h0]
      norm_num
      rw [Real.sqrt_sq_eq_abs, abs_mul]

theorem normSlice_run {m n k : Nat} {alpha beta : ℝ} {src o : Buf ℝ} {x y : Nat → ℝ} (ho : o.size = m * n) (hs : src.size = m * (k * n))
    (hx : ∀ j, j < m * (k * n) → src.data j = some (x j)) (hy : beta ≠ 0 → ∀ j, j < m * n → o.data j = some (y j)) :
    ∃ b', normSliceKernel m n k alpha src beta o = .ok b' ∧ b'.size = o.size ∧ ∀ i1 i2, i1 < m → i2 < n →
      b'.data (i1 + m * i2) = some (Real.sqrt ((beta * y (i1 + m * i2)) ^ 2 + alpha ^ 2 * ∑ i0 ∈ range k, x (i1 + m * (i0 + k * i2)) ^ 2)) := by
  unfold normSliceKernel
  refine forN2_puts ho (fun i1 i2 => Real.sqrt ((beta * y (i1 + m * i2)) ^ 2 + alpha ^ 2 * ∑ i0 ∈ range k, x (i1 + m * (i0 + k * i2)) ^ 2)) ?_
  intro i2 i1 h2 h1 d hd he
  obtain ⟨p, e, hp⟩ := normFold_real (k := k) (rd := fun i0 => src.rd (i2*(m*k) + i1 + i0*m)) (x := fun i0 => x (i1 + m * (i0 + k * i2))) (by
    intro i0 h0
    rw [pos3]
    exact Buf.rd_ok (hs ▸ cell3_lt h1 h0 h2) (hx _ (cell3_lt h1 h0 h2)))
  rw [e, M.bind_ok, pos2, fabs_real, storeNorm_real hp hd (fun hb => he.trans (hy hb _ (cell2_lt h1 h2)))]

/-! ### The tile loop of slice reductions -/

theorem take_insert (l : List Nat) (a i : Nat) : (l.insertIdx a i).take a = l.take a := by
  induction l generalizing a with
  | nil => cases a <;> simp
  | cons x l ih => cases a with
    | zero => simp
    | succ a => simp [ih]

theorem drop_insert (l : List Nat) {a : Nat} (h : a ≤ l.length) (i : Nat) : (l.insertIdx a i).drop (a+1) = l.drop a := by
  induction l generalizing a with
  | nil => cases a <;> simp_all
  | cons x l ih => cases a with
    | zero => simp
    | succ a => simpa using ih (by simpa using h)

/-- Cells of a slice and the cells reduced into it. -/
theorem view2 {S l : List Nat} {a : Nat} (ha : a < S.length) (hl : InBox (S.eraseIdx a) l) :
    ∃ i1 i2, i1 < mOf S a ∧ i2 < nOf S a ∧ lin (S.eraseIdx a) l = i1 + mOf S a * i2 ∧
      ∀ i0, lin S (l.insertIdx a i0) = i1 + mOf S a * (i0 + kOf S a * i2) := by
  have hll : l.length = S.length - 1 := by rw [hl.length, List.length_eraseIdx_of_lt ha]
  have hal : a ≤ l.length := by omega
  have hlen : ∀ i0, (l.insertIdx a i0).length = S.length := by intro i0; rw [List.length_insertIdx_of_le_length hal]; omega
  have ht : ∀ i0, (l.insertIdx a i0).take a = l.take a := by
    intro i0
    exact take_insert l a i0
  have hdr : ∀ i0, (l.insertIdx a i0).drop (a+1) = l.drop a := by
    intro i0
    exact drop_insert l hal i0
  have hl' := hl
  rw [List.eraseIdx_eq_take_drop_succ] at hl'
  have h1 := hl'.take a
  have h2 := hl'.drop a
  have e1 : ((S.take a) ++ S.drop (a+1)).take a = S.take a := by
    rw [List.take_append_of_le_length (by simp; omega)]; simp
  have e2 : ((S.take a) ++ S.drop (a+1)).drop a = S.drop (a+1) := by
    rw [List.drop_append]; simp [show min a S.length = a by omega]
  rw [e1] at h1
  rw [e2] at h2
  refine ⟨lin (S.take a) (l.take a), lin (S.drop (a+1)) (l.drop a), lin_lt h1, lin_lt h2, ?_, ?_⟩
  · have := lin_erase (S := S) (I := l.insertIdx a 0) (a := a) (hlen 0)
    rw [erase_insert, ht, hdr] at this
    exact this
  · intro i0
    rw [lin_axis ha (hlen i0), ht, hdr, getD_insert hal]
    rfl

/-- The tasks submitted by the loop of a slice reduction. -/
theorem sliceReduceLoop_ok [FP α] {src dst : Tensor} {a : Nat} (hs : src.WF) (h : dst.SliceOf src a) {beta : α}
    {submit : α → List Nat → Handle → Nat → Handle → M (Task1 α)} (task : α → List Nat → Task1 α)
    (hsub : ∀ be u, InBox src.grid u → submit be (src.tshape u) (src.id, lin src.grid u) (lin src.grid u) (dst.id, lin dst.grid (u.eraseIdx a)) =
      .ok (task be u)) :
    sliceReduceLoop src dst a beta submit = .ok ((List.range dst.ntiles).flatMap (fun i => (List.range (src.grid.getD a 0)).flatMap (fun j =>
      [task (if j = 0 then beta else 1) ((dst.tindex i).insertIdx a j)]))) := by
  have hax := h.axis_grid hs
  apply forTasks_ok
  intro i hi
  rw [Tensor.handleL_ok hi, M.bind_ok, vget_ok hax, M.bind_ok]
  apply forTasks_ok
  intro j hj
  have hin' := h.insert_inBox hs (dst.tindex_inBox i) hj
  have e := hsub (if j = 0 then beta else 1) _ hin'
  rw [erase_insert, Tensor.lin_tindex hi] at e
  simp only [Tensor.handleAt_ok hin', Tensor.tshapeAt_ok hin', M.bind_ok, e]

/-- The loop of a slice reduction. `V j I`: value at `I` after the first `j` tiles along the axis. -/
theorem sliceReduceLoop_run [FP α] {src dst : Tensor} {a : Nat} {s : Store α} (hs : src.WF) (hd : dst.Ready s) (h : dst.SliceOf src a) {beta : α}
    {submit : α → List Nat → Handle → Nat → Handle → M (Task1 α)} (task : α → List Nat → Task1 α) (V : Nat → List Nat → α)
    (hsub : ∀ be u, InBox src.grid u → submit be (src.tshape u) (src.id, lin src.grid u) (lin src.grid u) (dst.id, lin dst.grid (u.eraseIdx a)) =
      .ok (task be u) ∧ (task be u).out = (dst.id, lin dst.grid (u.eraseIdx a)) ∧ ∀ r ∈ (task be u).reads, r.1 ≠ dst.id)
    (h0 : ∀ t, InBox dst.grid t → ∃ b', (task beta (t.insertIdx a 0)).fn ((task beta (t.insertIdx a 0)).reads.map s)
        ((task beta (t.insertIdx a 0)).inp (s (dst.id, lin dst.grid t))) = .ok b' ∧ b'.size = (dst.tshape t).prod ∧
        ∀ l, InBox (dst.tshape t) l → b'.data (lin (dst.tshape t) l) = some (V 1 (globIdx dst.basetile t l)))
    (hj : ∀ t j, InBox dst.grid t → 0 < j → j < src.grid.getD a 0 → ∀ c : Buf α, c.size = (dst.tshape t).prod →
      (∀ l, InBox (dst.tshape t) l → c.data (lin (dst.tshape t) l) = some (V j (globIdx dst.basetile t l))) →
      ∃ b', (task 1 (t.insertIdx a j)).fn ((task 1 (t.insertIdx a j)).reads.map s) ((task 1 (t.insertIdx a j)).inp c) = .ok b' ∧
        b'.size = (dst.tshape t).prod ∧
        ∀ l, InBox (dst.tshape t) l → b'.data (lin (dst.tshape t) l) = some (V (j+1) (globIdx dst.basetile t l))) :
    Computes (sliceReduceLoop src dst a beta submit) s dst (V (src.grid.getD a 0)) := by
  have hin : ∀ t j, InBox dst.grid t → j < src.grid.getD a 0 → InBox src.grid (t.insertIdx a j) := fun t j ht hj => h.insert_inBox hs ht hj
  have hax := h.axis_grid hs
  have hg0 : 0 < src.grid.getD a 0 := (src.grid_pos).getD hax
  refine computes_tiles hd (fun t => (List.range (src.grid.getD a 0)).flatMap (fun j => [task (if j = 0 then beta else 1) (t.insertIdx a j)])) ?_ _ ?_ ?_
  · apply forTasks_ok
    intro i hi
    rw [Tensor.handleL_ok hi, M.bind_ok, vget_ok hax, M.bind_ok]
    apply forTasks_ok
    intro j hj
    have hin' := hin _ j (dst.tindex_inBox i) hj
    have e := (hsub (if j = 0 then beta else 1) _ hin').1
    rw [erase_insert, Tensor.lin_tindex hi] at e
    simp only [Tensor.handleAt_ok hin', Tensor.tshapeAt_ok hin', M.bind_ok, e]
  · intro t ht u hu
    simp only [List.mem_flatMap, List.mem_range, List.mem_singleton] at hu
    obtain ⟨j, hj, rfl⟩ := hu
    have := (hsub (if j = 0 then beta else 1) _ (hin t j ht hj)).2
    rwa [erase_insert] at this
  · intro t ht
    have hsz := hd.2.size ht
    obtain ⟨b', e, e1, -, e2⟩ := foldBuf_range_inv (s := s) (N := src.grid.getD a 0) (task := fun j => task (if j = 0 then beta else 1) (t.insertIdx a j))
      (b := s (dst.id, lin dst.grid t))
      (fun j c => c.size = (dst.tshape t).prod ∧ (j = 0 → c = s (dst.id, lin dst.grid t)) ∧
        (0 < j → ∀ l, InBox (dst.tshape t) l → c.data (lin (dst.tshape t) l) = some (V j (globIdx dst.basetile t l))))
      ⟨hsz, fun _ => rfl, fun h => by omega⟩ (by
        rintro j hj' c ⟨c1, c2, c3⟩
        rcases Nat.eq_zero_or_pos j with rfl | hpos
        · obtain ⟨b', e, e1, e2⟩ := h0 t ht
          exact ⟨b', by simpa [c2 rfl] using e, e1, by omega, fun _ => e2⟩
        · obtain ⟨b', e, e1, e2⟩ := hj t j ht hpos hj' c c1 (c3 hpos)
          exact ⟨b', by simpa [show j ≠ 0 by omega] using e, e1, by omega, fun _ => e2⟩)
    exact ⟨b', e, by rw [e1, hsz], e2 hg0⟩

end NNTile

namespace NNTile
open Finset
variable {α : Type}

theorem slice_glob {src dst : Tensor} {a : Nat} (h : dst.SliceOf src a) (hs : src.WF) {t l : List Nat} {j i0 : Nat}
    (hu : InBox src.grid (t.insertIdx a j)) (hl : InBox (src.tshape (t.insertIdx a j)) (l.insertIdx a i0)) (hta : a ≤ t.length) (hla : a ≤ l.length) :
    globIdx src.basetile (t.insertIdx a j) (l.insertIdx a i0) = (globIdx dst.basetile t l).insertIdx a (j * src.basetile.getD a 0 + i0) := by
  have e := h.glob hs hu hl
  rw [erase_insert, erase_insert] at e
  have hlen : (globIdx src.basetile (t.insertIdx a j) (l.insertIdx a i0)).length = src.shape.length := ((hs.glob hu hl).1).length
  have h1 := insert_erase (I := globIdx src.basetile (t.insertIdx a j) (l.insertIdx a i0)) (a := a) (by rw [hlen]; exact h.axis)
  rw [← e] at h1
  rw [getD_globIdx (by rw [hu.length, hs.grid_length, hs.2.2]) (by rw [hl.length, hs.tshape_length hu, hs.2.2]) (by rw [hs.2.2]; exact h.axis),
    getD_insert hta, getD_insert hla] at h1
  exact h1.symm

/-- The tile of `src` number `j` along the axis that is reduced into tile `t` of `dst`. -/
theorem slice_tile {src dst : Tensor} {a : Nat} {s : Store α} (h : dst.SliceOf src a) (hs : src.Ready s) {t : List Nat} {j : Nat}
    (ht : InBox dst.grid t) (hj : j < src.grid.getD a 0) {x : List Nat → α} (hx : src.Holds s x) :
    ∃ X : Nat → α, dst.tshape t = (src.tshape (t.insertIdx a j)).eraseIdx a ∧
      (dst.tshape t).prod = mOf (src.tshape (t.insertIdx a j)) a * nOf (src.tshape (t.insertIdx a j)) a ∧
      (s (src.id, lin src.grid (t.insertIdx a j))).size =
        mOf (src.tshape (t.insertIdx a j)) a * (kOf (src.tshape (t.insertIdx a j)) a * nOf (src.tshape (t.insertIdx a j)) a) ∧
      kOf (src.tshape (t.insertIdx a j)) a = min (src.basetile.getD a 0) (src.shape.getD a 0 - j * src.basetile.getD a 0) ∧
      (∀ k, k < mOf (src.tshape (t.insertIdx a j)) a * (kOf (src.tshape (t.insertIdx a j)) a * nOf (src.tshape (t.insertIdx a j)) a) →
        (s (src.id, lin src.grid (t.insertIdx a j))).data k = some (X k)) ∧
      ∀ l, InBox (dst.tshape t) l → ∃ i1 i2, i1 < mOf (src.tshape (t.insertIdx a j)) a ∧ i2 < nOf (src.tshape (t.insertIdx a j)) a ∧
        lin (dst.tshape t) l = i1 + mOf (src.tshape (t.insertIdx a j)) a * i2 ∧
        ∀ i0, i0 < kOf (src.tshape (t.insertIdx a j)) a →
          X (i1 + mOf (src.tshape (t.insertIdx a j)) a * (i0 + kOf (src.tshape (t.insertIdx a j)) a * i2)) =
            x ((globIdx dst.basetile t l).insertIdx a (j * src.basetile.getD a 0 + i0)) := by
  have hu : InBox src.grid (t.insertIdx a j) := h.insert_inBox hs.1 ht hj
  have hax : a < (src.tshape (t.insertIdx a j)).length := by rw [hs.1.tshape_length hu]; exact h.axis
  have hts : dst.tshape t = (src.tshape (t.insertIdx a j)).eraseIdx a := by rw [← h.tshape hs.1 hu, erase_insert]
  have htl : t.length = src.grid.length - 1 := by rw [ht.length, h.grid hs.1, List.length_eraseIdx_of_lt (h.axis_grid hs.1)]
  have hta : a ≤ t.length := by have := h.axis_grid hs.1; omega
  have hsz := hs.2.size hu
  refine ⟨fun k => x (globIdx src.basetile (t.insertIdx a j) (unlin (src.tshape (t.insertIdx a j)) k)), hts, ?_, ?_, ?_, ?_, ?_⟩
  · rw [hts, prod_erase]; rfl
  · rw [hsz, size3 hax]
  · rw [kOf, Tensor.tshape, getD_tileShape hs.1.2.2 (by rw [hu.length, hs.1.grid_length]) h.axis, getD_insert hta]
  · intro k hk
    rw [← size3 hax] at hk
    exact hx.data hs.1 hu hk
  · intro l hl
    rw [hts] at hl
    obtain ⟨i1, i2, g1, g2, q1, q2⟩ := view2 hax hl
    refine ⟨i1, i2, g1, g2, by rw [hts, q1], ?_⟩
    intro i0 h0
    have hins : InBox (src.tshape (t.insertIdx a j)) (l.insertIdx a i0) := hl.insert hax h0
    have hla : a ≤ l.length := by rw [hl.length, List.length_eraseIdx_of_lt hax]; omega
    show x (globIdx src.basetile (t.insertIdx a j) (unlin (src.tshape (t.insertIdx a j)) _)) = _
    rw [← q2 i0, unlin_lin hins, slice_glob h hs.1 hu hins hta hla]

/-- Contents of a tile of `dst` as a function of the offset. -/
theorem tile_fn {dst : Tensor} {t : List Nat} (hd : dst.WF) (ht : InBox dst.grid t) {c : Buf α} {w : List Nat → α}
    (h : ∀ l, InBox (dst.tshape t) l → c.data (lin (dst.tshape t) l) = some (w l)) :
    ∃ Y : Nat → α, (∀ j, j < (dst.tshape t).prod → c.data j = some (Y j)) ∧ ∀ l, InBox (dst.tshape t) l → Y (lin (dst.tshape t) l) = w l := by
  refine ⟨fun j => w (unlin (dst.tshape t) j), fun j hj => ?_, fun l hl => by show w _ = _; rw [unlin_lin hl]⟩
  have := h _ (unlin_inBox (hd.tshape_pos ht) j)
  rwa [lin_unlin hj] at this

theorem reduceMode_inp {beta : ℝ} {redux : Bool} {c : Buf ℝ} {name : String} {out : Handle} {reads : List Handle}
    {fn : List (Buf ℝ) → Buf ℝ → M (Buf ℝ)} :
    (⟨name, reads, out, reduceMode beta redux, fn⟩ : Task1 ℝ).inp c = if beta = 0 then Buf.undef c.size else c := by
  unfold Task1.inp reduceMode
  by_cases hb : beta = 0
  · simp [hb]
  · have hz : FP.eqb beta 0 = false := by simpa using hb
    simp only [hz, Bool.false_eq_true, if_false, if_neg hb]
    by_cases h1 : FP.eqb beta 1 = true
    · cases redux <;> simp [h1]
    · simp [h1]

end NNTile
