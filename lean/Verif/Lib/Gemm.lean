import Verif.Spec.Gemm
import Verif.Lib.Reduce
import Verif.Lib.Check
/-! Lemmas about `gemm`. -/
namespace NNTile
open Finset
variable {α : Type}

/-! ### Dimensions -/

/-- Column-major offset in an array of the dimensions of `opCat`, from the row, column and batch offsets. -/
def opOff : TransOp → Nat → Nat → Nat → Nat → Nat → Nat
  | .noTrans, m, n, i, j, b => i + m * (j + n * b)
  | .trans, m, n, i, j, b => j + n * (i + m * b)

theorem opOff_lt {t : TransOp} {m n bt i j b : Nat} (hi : i < m) (hj : j < n) (hb : b < bt) : opOff t m n i j b < m * (n * bt) := by
  cases t
  · exact cell3_lt hi hj hb
  · rw [show m * (n * bt) = n * (m * bt) by ring]; exact cell3_lt hj hi hb

theorem prod_opCat (t : TransOp) (P Q R : List Nat) : (opCat t P Q R).prod = P.prod * (Q.prod * R.prod) := by
  cases t
  · simp [opCat, List.prod_append, mul_assoc]
  · simp [opCat, List.prod_append]; ring

theorem opCat_length (t : TransOp) (P Q R : List Nat) : (opCat t P Q R).length = P.length + Q.length + R.length := by
  cases t
  · simp [opCat, add_assoc]
  · simp [opCat]; omega

theorem lin_opCat (t : TransOp) {P Q R p q r : List Nat} (hp : p.length = P.length) (hq : q.length = Q.length) :
    lin (opCat t P Q R) (opCat t p q r) = opOff t P.prod Q.prod (lin P p) (lin Q q) (lin R r) := by
  cases t
  · simp only [opCat, opOff, List.append_assoc]; rw [lin_append hp, lin_append hq]
  · simp only [opCat, opOff, List.append_assoc]; rw [lin_append hq, lin_append hp]

theorem InBox.opCat (t : TransOp) {P Q R p q r : List Nat} (hp : InBox P p) (hq : InBox Q q) (hr : InBox R r) :
    InBox (opCat t P Q R) (opCat t p q r) := by
  cases t
  · exact (hp.append hq).append hr
  · exact (hq.append hp).append hr

theorem gridOf_opCat (t : TransOp) {P Q R P' Q' R' : List Nat} (hp : P'.length = P.length) (hq : Q'.length = Q.length) :
    gridOf (opCat t P Q R) (opCat t P' Q' R') = opCat t (gridOf P P') (gridOf Q Q') (gridOf R R') := by
  cases t
  · simp only [opCat]; rw [gridOf_append (by simp [hp, hq]), gridOf_append hp]
  · simp only [opCat]; rw [gridOf_append (by simp [hp, hq]), gridOf_append hq]

theorem tileShape_opCat (t : TransOp) {P Q R P' Q' R' p q r : List Nat} (hp : P'.length = P.length) (hq : Q'.length = Q.length)
    (hp' : p.length = P.length) (hq' : q.length = Q.length) :
    tileShape (opCat t P Q R) (opCat t P' Q' R') (opCat t p q r) = opCat t (tileShape P P' p) (tileShape Q Q' q) (tileShape R R' r) := by
  cases t
  · simp only [opCat]; rw [tileShape_append (by simp [hp, hq]) (by simp [hp', hq']), tileShape_append hp hp']
  · simp only [opCat]; rw [tileShape_append (by simp [hp, hq]) (by simp [hp', hq']), tileShape_append hq hq']

theorem globIdx_opCat (t : TransOp) {P Q R p q r p' q' r' : List Nat} (hp : p.length = P.length) (hq : q.length = Q.length)
    (hp' : p'.length = P.length) (hq' : q'.length = Q.length) :
    globIdx (opCat t P Q R) (opCat t p q r) (opCat t p' q' r') = opCat t (globIdx P p p') (globIdx Q q q') (globIdx R r r') := by
  cases t
  · simp only [opCat]; rw [globIdx_append (by simp [hp, hq]) (by simp [hp', hq']), globIdx_append hp hp']
  · simp only [opCat]; rw [globIdx_append (by simp [hp, hq]) (by simp [hp', hq']), globIdx_append hq hq']

theorem Pos_opCat {t : TransOp} {P Q R : List Nat} : Pos (opCat t P Q R) ↔ Pos P ∧ Pos Q ∧ Pos R := by
  cases t <;> simp [opCat, and_assoc, and_left_comm]

/-! ### The kernel -/

theorem plain_sum {k : Nat} {rd rd' : Nat → M ℝ} {x x' : Nat → ℝ} (h : ∀ i, i < k → rd i = .ok (x i)) (h' : ∀ i, i < k → rd' i = .ok (x' i)) :
    forN k (fun l acc => rd l >>= fun v => rd' l >>= fun w => (.ok (acc + v * w) : M ℝ)) (0 : ℝ) = .ok (∑ l ∈ range k, x l * x' l) := by
  induction k with
  | zero => simp [forN]
  | succ k ih =>
    rw [forN_succ, ih (fun i hi => h i (by omega)) (fun i hi => h' i (by omega)), M.bind_ok, h k (by omega), M.bind_ok, h' k (by omega), M.bind_ok,
      sum_range_succ]

/-- Three nested loops, each step setting one cell. -/
theorem forN3_puts {m n bt : Nat} {o : Buf α} {body : Nat → Nat → Nat → Buf α → M (Buf α)} (ho : o.size = m * (n * bt)) (v : Nat → Nat → Nat → α)
    (hbody : ∀ b j i, b < bt → j < n → i < m → ∀ d : Buf α, i + m * (j + n * b) < d.size → d.data (i + m * (j + n * b)) = o.data (i + m * (j + n * b)) →
      body b j i d = .ok (d.put (i + m * (j + n * b)) (v i j b))) :
    ∃ b', forN bt (fun b d => forN n (fun j d => forN m (fun i d => body b j i d) d) d) o = .ok b' ∧ b'.size = o.size ∧
      ∀ i j b, i < m → j < n → b < bt → b'.data (i + m * (j + n * b)) = some (v i j b) := by
  have key := Puts.forN (o := o) (n := bt) (f := fun b d => forN n (fun j d => forN m (fun i d => body b j i d) d) d)
    (P := fun b c => ∃ j, j < n ∧ ∃ i, i < m ∧ c = i + m * (j + n * b)) (v := fun c => v (c % m) (c / m % n) (c / m / n))
    (by
      intro b hb
      apply Puts.forN (f := fun j d => forN m (fun i d => body b j i d) d) (P := fun j c => ∃ i, i < m ∧ c = i + m * (j + n * b))
      · intro j hj
        apply Puts.forN (f := fun i d => body b j i d) (P := fun i c => c = i + m * (j + n * b))
        · intro i hi
          apply Puts.step
          · rw [ho]; exact cell3_lt hi hj hb
          · intro d hd he
            rw [hbody b j i hb hj hi d hd he, cell2_mod hi, cell2_div hi, cell2_mod hj, cell2_div hj]
        · rintro i i' hij hj' c rfl h'
          have := cell3_inj (by omega) hj' hj hj h'
          omega
      · rintro j j' hij hj' c ⟨i, hi, rfl⟩ ⟨i', hi', h'⟩
        have := cell3_inj hi hi' (by omega) hj' h'
        omega)
    (by
      rintro b b' hij hj c ⟨j, h1, i, h2, rfl⟩ ⟨j', h1', i', h2', h'⟩
      have := cell3_inj h2 h2' h1 h1' h'
      omega)
  obtain ⟨b', e, z, a, -⟩ := key.run
  refine ⟨b', e, z, fun i j b hi hj hb => ?_⟩
  rw [a _ ⟨b, hb, j, hj, i, hi, rfl⟩, cell2_mod hi, cell2_div hi, cell2_mod hj, cell2_div hj]

theorem gemm_run {tA tB : TransOp} {m n k bt : Nat} {alpha beta : ℝ} {A B o : Buf ℝ} {x y z : Nat → ℝ} (ho : o.size = m * (n * bt))
    (hA : A.size = m * (k * bt)) (hB : B.size = k * (n * bt)) (hx : ∀ c, c < m * (k * bt) → A.data c = some (x c))
    (hy : ∀ c, c < k * (n * bt) → B.data c = some (y c)) (hz : beta ≠ 0 → ∀ c, c < m * (n * bt) → o.data c = some (z c)) :
    ∃ b', gemmKernel tA tB m n k bt alpha A B beta o = .ok b' ∧ b'.size = o.size ∧ ∀ i j b, i < m → j < n → b < bt →
      b'.data (i + m * (j + n * b)) = some (alpha * ∑ l ∈ range k, x (opOff tA m k i l b) * y (opOff tB k n l j b) + beta * z (i + m * (j + n * b))) := by
  unfold gemmKernel cblasGemm
  refine forN3_puts ho (fun i j b => alpha * ∑ l ∈ range k, x (opOff tA m k i l b) * y (opOff tB k n l j b) + beta * z (i + m * (j + n * b))) ?_
  intro b j i hb hj hi d hd he
  rw [plain_sum (x := fun l => x (opOff tA m k i l b)) (x' := fun l => y (opOff tB k n l j b))]
  · rw [M.bind_ok, show b * (m * n) + (i + j * m) = i + m * (j + n * b) by ring]
    by_cases h0 : beta = 0
    · rw [if_pos (by simpa using h0), Buf.wr_put hd, h0, zero_mul, add_zero]
    · rw [if_neg (by simpa using h0), Buf.rd_ok hd (he.trans (hz h0 _ (cell3_lt hi hj hb))), M.bind_ok, Buf.wr_put hd]
  · intro l hl
    refine (congrArg A.rd ?_).trans (Buf.rd_ok (hA ▸ opOff_lt (t := tA) hi hl hb) (hx _ (opOff_lt hi hl hb)))
    cases tA
    · simp only [opOff, TransOp.sel]; ring
    · simp only [opOff, TransOp.sel]; ring
  · intro l hl
    refine (congrArg B.rd ?_).trans (Buf.rd_ok (hB ▸ opOff_lt (t := tB) hl hj hb) (hy _ (opOff_lt hl hj hb)))
    cases tB
    · simp only [opOff, TransOp.sel]; ring
    · simp only [opOff, TransOp.sel]; ring

/-! ### Nested task loops -/

theorem flatMap_range_mul {τ : Type _} {n m : Nat} (g : Nat → List τ) :
    (List.range n).flatMap (fun j => (List.range m).flatMap (fun i => g (j * m + i))) = (List.range (n * m)).flatMap g := by
  induction n with
  | zero => simp
  | succ n ih =>
    rw [List.range_succ, List.flatMap_append, ih, Nat.succ_mul, List.range_add, List.flatMap_append]
    simp [List.flatMap_map]

theorem range_flatMap_first {τ : Type _} {k : Nat} (hk : 0 < k) (g : Nat → τ) :
    (List.range k).flatMap (fun l => [g l]) = g 0 :: (List.range (k - 1)).flatMap (fun l => [g (l + 1)]) := by
  obtain ⟨k, rfl⟩ : ∃ k', k = k' + 1 := ⟨k - 1, by omega⟩
  rw [List.range_succ_eq_map]
  simp [List.flatMap_map]

/-! ### Checks -/

/-- The part of length `n` of a list that starts at position `i`. -/
def part (l : List Nat) (i n : Nat) : List Nat := (l.drop i).take n

theorem part_length {l : List Nat} {i n : Nat} (h : i + n ≤ l.length) : (part l i n).length = n := by simp [part]; omega

theorem getD_part {l : List Nat} {i n k : Nat} (hk : k < n) : (part l i n).getD k 0 = l.getD (i + k) 0 := by
  simp [part, List.getD, hk]

theorem part_eq_iff {l l' : List Nat} {i j n : Nat} (h : i + n ≤ l.length) (h' : j + n ≤ l'.length) :
    part l i n = part l' j n ↔ ∀ k, k < n → l.getD (i + k) 0 = l'.getD (j + k) 0 := by
  constructor
  · intro e k hk
    rw [← getD_part hk, e, getD_part hk]
  · intro e
    apply List.ext_getElem
    · rw [part_length h, part_length h']
    · intro k h1 h2
      rw [part_length h] at h1
      have := e k h1
      rw [← getD_part h1, ← getD_part h1] at this
      rwa [getD_eq_getElem, getD_eq_getElem] at this

theorem part_append_left {l l' : List Nat} {n : Nat} (h : n = l.length) : part (l ++ l') 0 n = l := by
  subst h; simp [part]

theorem part_append_right {l l' : List Nat} {n : Nat} {i j : Nat} (h : j = l.length + i) : part (l ++ l') j n = part l' i n := by
  subst h
  simp [part, List.drop_append, List.drop_of_length_le]

theorem part_all {l : List Nat} {n : Nat} (h : n = l.length) : part l 0 n = l := by subst h; simp [part]

theorem part_append {l : List Nat} {i n k : Nat} : part l i n ++ part l (i + n) k = part l i (n + k) := by
  simp only [part]
  rw [← List.drop_drop, List.take_add]

theorem gemmDims_iff {tA tB : TransOp} {nd bt d e : Nat} {A B C : List Nat} (hA : A.length = d + nd + bt) (hB : B.length = nd + e + bt)
    (hC : C.length = d + e + bt) :
    (∃ M K N R, GemmDims tA tB nd bt A B C M K N R) ↔
      (part A (d + nd) bt = part B (e + nd) bt ∧ part A (d + nd) bt = part C (d + e) bt) ∧
      part A (tA.sel d 0) nd = part B (tB.sel 0 e) nd ∧
      part A (tA.sel 0 nd) d = part C 0 d ∧
      part B (tB.sel nd 0) e = part C d e := by
  constructor
  · rintro ⟨M, K, N, R, hK, hR, rfl, rfl, rfl⟩
    have hM : M.length = d := by rw [opCat_length] at hA; omega
    have hN : N.length = e := by rw [opCat_length] at hB; omega
    subst hK hR hM hN
    have h1 : part (M ++ N ++ R) (M.length + N.length) R.length = R := by
      rw [part_append_right (i := 0) (by simp), part_all rfl]
    have h2 : part (M ++ N ++ R) 0 M.length = M := by rw [List.append_assoc, part_append_left rfl]
    have h3 : part (M ++ N ++ R) M.length N.length = N := by
      rw [List.append_assoc, part_append_right (i := 0) (by simp), part_append_left rfl]
    rw [h1, h2, h3]
    have hA1 : part (opCat tA M K R) (M.length + K.length) R.length = R := by
      cases tA <;> (simp only [opCat]; rw [part_append_right (i := 0) (by simp; try omega), part_all rfl])
    have hB1 : part (opCat tB K N R) (N.length + K.length) R.length = R := by
      cases tB <;> (simp only [opCat]; rw [part_append_right (i := 0) (by simp; try omega), part_all rfl])
    rw [hA1, hB1]
    refine ⟨⟨rfl, rfl⟩, ?_, ?_, ?_⟩
    · have e1 : part (opCat tA M K R) (tA.sel M.length 0) K.length = K := by
        cases tA
        · simp only [opCat, List.append_assoc, TransOp.sel]
          rw [part_append_right (i := 0) (by simp), part_append_left rfl]
        · simp only [opCat, List.append_assoc, TransOp.sel]
          rw [part_append_left rfl]
      have e2 : part (opCat tB K N R) (tB.sel 0 N.length) K.length = K := by
        cases tB
        · simp only [opCat, List.append_assoc, TransOp.sel]
          rw [part_append_left rfl]
        · simp only [opCat, List.append_assoc, TransOp.sel]
          rw [part_append_right (i := 0) (by simp), part_append_left rfl]
      rw [e1, e2]
    · cases tA
      · simp only [opCat, List.append_assoc, TransOp.sel]
        rw [part_append_left rfl]
      · simp only [opCat, List.append_assoc, TransOp.sel]
        rw [part_append_right (i := 0) (by simp), part_append_left rfl]
    · cases tB
      · simp only [opCat, List.append_assoc, TransOp.sel]
        rw [part_append_right (i := 0) (by simp), part_append_left rfl]
      · simp only [opCat, List.append_assoc, TransOp.sel]
        rw [part_append_left rfl]
  · rintro ⟨⟨h1, h2⟩, h3, h4, h5⟩
    refine ⟨part C 0 d, part A (tA.sel d 0) nd, part C d e, part C (d + e) bt, ?_, ?_, ?_, ?_, ?_⟩
    · apply part_length; cases tA <;> simp only [TransOp.sel] <;> omega
    · apply part_length; omega
    · rw [← h2, ← h4]
      cases tA
      · simp only [opCat, TransOp.sel]
        have := part_append (l := A) (i := 0) (n := d) (k := nd)
        rw [Nat.zero_add] at this
        have h := part_append (l := A) (i := 0) (n := d + nd) (k := bt)
        rw [Nat.zero_add] at h
        rw [this, h, part_all hA.symm]
      · simp only [opCat, TransOp.sel]
        have := part_append (l := A) (i := 0) (n := nd) (k := d)
        rw [Nat.zero_add] at this
        have h := part_append (l := A) (i := 0) (n := nd + d) (k := bt)
        rw [Nat.zero_add, Nat.add_comm nd d] at h
        rw [this, Nat.add_comm nd d, h, part_all hA.symm]
    · rw [← h2, h1, ← h5, h3]
      cases tB
      · simp only [opCat, TransOp.sel]
        have := part_append (l := B) (i := 0) (n := nd) (k := e)
        rw [Nat.zero_add] at this
        have h := part_append (l := B) (i := 0) (n := nd + e) (k := bt)
        rw [Nat.zero_add] at h
        rw [this, Nat.add_comm e nd, h, part_all hB.symm]
      · simp only [opCat, TransOp.sel]
        have := part_append (l := B) (i := 0) (n := e) (k := nd)
        rw [Nat.zero_add] at this
        have h := part_append (l := B) (i := 0) (n := e + nd) (k := bt)
        rw [Nat.zero_add] at h
        rw [this, h, part_all (by omega)]
    · have := part_append (l := C) (i := 0) (n := d) (k := e)
      rw [Nat.zero_add] at this
      have h := part_append (l := C) (i := 0) (n := d + e) (k := bt)
      rw [Nat.zero_add] at h
      rw [this, h, part_all hC.symm]

/-- The parts of shape and tiling agree. -/
def PartsEq (A B : Tensor) (i j n : Nat) : Prop := part A.shape i n = part B.shape j n ∧ part A.basetile i n = part B.basetile j n

theorem check_parts {A B : Tensor} (hA : A.WF) (hB : B.WF) {i j n : Nat} (hi : i + n ≤ A.ndim) (hj : j + n ≤ B.ndim) {f g : Nat → Nat}
    (hf : ∀ k, k < n → f k = i + k) (hg : ∀ k, k < n → g k = j + k) :
    Check (forCheck n (fun k => checkPair A B (f k) (g k))) (PartsEq A B i j n) := by
  refine (Check.forCheck (P := fun k => A.shape.getD (i + k) 0 = B.shape.getD (j + k) 0 ∧ A.basetile.getD (i + k) 0 = B.basetile.getD (j + k) 0)
    (fun k hk => by rw [hf k hk, hg k hk]; exact checkPair_check hA hB (by omega) (by omega))).mono ?_
  unfold PartsEq
  rw [part_eq_iff hi hj, part_eq_iff (by rw [hA.2.2]; exact hi) (by rw [hB.2.2]; exact hj)]
  exact ⟨fun h => ⟨fun k hk => (h k hk).1, fun k hk => (h k hk).2⟩, fun h k hk => ⟨h.1 k hk, h.2 k hk⟩⟩

theorem gemmCheckBatch_check {A B C : Tensor} (hA : A.WF) (hB : B.WF) (hC : C.WF) {bt : Nat} (h1 : bt ≤ A.ndim) (h2 : bt ≤ B.ndim) (h3 : bt ≤ C.ndim) :
    Check (gemmCheckBatch A B C bt) (PartsEq A B (A.ndim - bt) (B.ndim - bt) bt ∧ PartsEq A C (A.ndim - bt) (C.ndim - bt) bt) := by
  refine (Check.forCheck (fun k hk => (checkPair_check hA hB (i := A.ndim - k - 1) (j := B.ndim - k - 1) (by omega) (by omega)).bind
    (fun _ => checkPair_check hA hC (i := A.ndim - k - 1) (j := C.ndim - k - 1) (by omega) (by omega)))).mono ?_
  unfold PartsEq
  rw [part_eq_iff (l := A.shape) (l' := B.shape) (by simp only [Tensor.ndim] at *; omega) (by simp only [Tensor.ndim] at *; omega),
    part_eq_iff (l := A.basetile) (l' := B.basetile) (by rw [hA.2.2]; simp only [Tensor.ndim] at *; omega) (by rw [hB.2.2]; simp only [Tensor.ndim] at *; omega),
    part_eq_iff (l := A.shape) (l' := C.shape) (by simp only [Tensor.ndim] at *; omega) (by simp only [Tensor.ndim] at *; omega),
    part_eq_iff (l := A.basetile) (l' := C.basetile) (by rw [hA.2.2]; simp only [Tensor.ndim] at *; omega) (by rw [hC.2.2]; simp only [Tensor.ndim] at *; omega)]
  have e : ∀ (nn k : Nat), bt ≤ nn → k < bt → nn - bt + (bt - 1 - k) = nn - k - 1 := by intros; omega
  have e' : ∀ (nn k : Nat), bt ≤ nn → k < bt → nn - bt + k = nn - (bt - 1 - k) - 1 := by intros; omega
  constructor
  · intro h
    refine ⟨⟨fun k hk => ?_, fun k hk => ?_⟩, fun k hk => ?_, fun k hk => ?_⟩
    all_goals
      have := h (bt - 1 - k) (by omega)
      rw [← e' _ k h1 hk, ← e' _ k h2 hk, ← e' _ k h3 hk] at this
    · exact this.1.1
    · exact this.1.2
    · exact this.2.1
    · exact this.2.2
  · rintro ⟨⟨a1, a2⟩, a3, a4⟩ k hk
    have b1 := a1 (bt - 1 - k) (by omega)
    have b2 := a2 (bt - 1 - k) (by omega)
    have b3 := a3 (bt - 1 - k) (by omega)
    have b4 := a4 (bt - 1 - k) (by omega)
    rw [e _ k h1 hk, e _ k h2 hk] at b1 b2
    rw [e _ k h1 hk, e _ k h3 hk] at b3 b4
    exact ⟨⟨b1, b2⟩, b3, b4⟩

theorem gemmCheck_check {tA tB : TransOp} {A B C : Tensor} (hA : A.WF) (hB : B.WF) (hC : C.WF) {ndim batch_ndim : Int} :
    Check (gemmCheck tA A tB B C ndim batch_ndim) (∃ nd bt : Nat, ndim = nd ∧ batch_ndim = bt ∧ GemmFit tA tB nd bt A B C) := by
  by_cases h0 : 0 ≤ ndim ∧ 0 ≤ batch_ndim ∧ batch_ndim + ndim ≤ A.ndim ∧ batch_ndim + ndim ≤ B.ndim ∧
      (A.ndim : Int) + B.ndim = C.ndim + 2*ndim + batch_ndim
  · obtain ⟨h1, h2, h3, h4, h5⟩ := h0
    obtain ⟨nd, rfl⟩ := Int.eq_ofNat_of_zero_le h1
    obtain ⟨bt, rfl⟩ := Int.eq_ofNat_of_zero_le h2
    obtain ⟨d, hd⟩ : ∃ d, A.ndim = d + nd + bt := ⟨A.ndim - bt - nd, by omega⟩
    obtain ⟨e, he⟩ : ∃ e, B.ndim = nd + e + bt := ⟨B.ndim - bt - nd, by omega⟩
    have hn : C.ndim = d + e + bt := by omega
    have p1 := gemmCheckBatch_check hA hB hC (bt := bt) (by omega) (by omega) (by omega)
    have p2 : Check (gemmCheckOpAOpB tA A tB B nd bt) (PartsEq A B (tA.sel d 0) (tB.sel 0 e) nd) := by
      cases tA <;> cases tB <;> simp only [gemmCheckOpAOpB, TransOp.sel] <;>
        exact check_parts hA hB (by omega) (by omega) (by intros; omega) (by intros; omega)
    have p3 : Check (gemmCheckOpAC tA A C nd bt) (PartsEq A C (tA.sel 0 nd) 0 d) := by
      cases tA <;> simp only [gemmCheckOpAC, TransOp.sel, show A.ndim - bt - nd = d by omega] <;>
        exact check_parts hA hC (by omega) (by omega) (by intros; omega) (by intros; omega)
    have p4 : Check (gemmCheckOpBC tB B C nd bt) (PartsEq B C (tB.sel nd 0) d e) := by
      cases tB <;> simp only [gemmCheckOpBC, TransOp.sel, show B.ndim - bt - nd = e by omega] <;>
        exact check_parts hB hC (by omega) (by omega) (by intros; omega) (by intros; omega)
    have p := p1.bind (fun _ => p2.bind (fun _ => p3.bind (fun _ => p4)))
    simp only [gemmCheck]
    rw [throwIf_neg (by omega), M.bind_ok, throwIf_neg (by omega), M.bind_ok, throwIf_neg (by omega), M.bind_ok, throwIf_neg (by omega), M.bind_ok,
      throwIf_neg (by simpa using h5), M.bind_ok]
    simp only [Int.toNat_natCast]
    refine p.mono ?_
    simp only [show A.ndim - bt = d + nd by omega, show B.ndim - bt = e + nd by omega, show C.ndim - bt = d + e by omega]
    have q1 := gemmDims_iff (tA := tA) (tB := tB) (nd := nd) (bt := bt) (d := d) (e := e) (A := A.shape) (B := B.shape) (C := C.shape) hd he hn
    have q2 := gemmDims_iff (tA := tA) (tB := tB) (nd := nd) (bt := bt) (d := d) (e := e) (A := A.basetile) (B := B.basetile) (C := C.basetile)
      (hA.2.2.trans hd) (hB.2.2.trans he) (hC.2.2.trans hn)
    unfold PartsEq
    constructor
    · rintro ⟨⟨⟨a1, a2⟩, a3, a4⟩, ⟨b1, b2⟩, ⟨c1, c2⟩, ⟨f1, f2⟩⟩
      exact ⟨nd, bt, rfl, rfl, q1.2 ⟨⟨a1, a3⟩, b1, c1, f1⟩, q2.2 ⟨⟨a2, a4⟩, b2, c2, f2⟩⟩
    · rintro ⟨nd', bt', g1, g2, g3, g4⟩
      obtain rfl : nd = nd' := by omega
      obtain rfl : bt = bt' := by omega
      obtain ⟨⟨a1, a3⟩, b1, c1, f1⟩ := q1.1 g3
      obtain ⟨⟨a2, a4⟩, b2, c2, f2⟩ := q2.1 g4
      exact ⟨⟨⟨a1, a2⟩, a3, a4⟩, ⟨b1, b2⟩, ⟨c1, c2⟩, ⟨f1, f2⟩⟩
  · have hno : ¬ ∃ nd bt : Nat, ndim = nd ∧ batch_ndim = bt ∧ GemmFit tA tB nd bt A B C := by
      rintro ⟨nd, bt, rfl, rfl, ⟨M, K, N, R, hK, hR, e1, e2, e3⟩, -⟩
      apply h0
      have l1 : A.ndim = M.length + K.length + R.length := by rw [Tensor.ndim, e1, opCat_length]
      have l2 : B.ndim = K.length + N.length + R.length := by rw [Tensor.ndim, e2, opCat_length]
      have l3 : C.ndim = M.length + N.length + R.length := by rw [Tensor.ndim, e3]; simp; omega
      omega
    refine ⟨fun h => absurd h hno, fun _ => ?_⟩
    simp only [gemmCheck]
    refine throws_step fun g1 => throws_step fun g2 => throws_step fun g3 => throws_step fun g4 => throws_step fun g5 => ?_
    exact absurd ⟨by omega, by omega, by omega, by omega, by simpa using g5⟩ h0

/-! ### Tensors seen as batches of matrices -/

/-- `T` has the dimensions `opCat t P Q R`, cut into tiles `opCat t P' Q' R'`. -/
structure Tensor.IsOp (T : Tensor) (t : TransOp) (P Q R P' Q' R' : List Nat) : Prop where
  lP : P'.length = P.length
  lQ : Q'.length = Q.length
  lR : R'.length = R.length
  shape : T.shape = opCat t P Q R
  basetile : T.basetile = opCat t P' Q' R'

namespace Tensor.IsOp
variable {T : Tensor} {t : TransOp} {P Q R P' Q' R' : List Nat} (h : T.IsOp t P Q R P' Q' R')
include h

theorem grid : T.grid = opCat t (gridOf P P') (gridOf Q Q') (gridOf R R') := by
  rw [Tensor.grid, h.shape, h.basetile, gridOf_opCat t h.lP h.lQ]

theorem ntiles : T.ntiles = (gridOf P P').prod * ((gridOf Q Q').prod * (gridOf R R').prod) := by
  rw [Tensor.ntiles, h.grid, prod_opCat]

theorem inBox {p q r : List Nat} (hp : InBox (gridOf P P') p) (hq : InBox (gridOf Q Q') q) (hr : InBox (gridOf R R') r) :
    InBox T.grid (opCat t p q r) := by
  rw [h.grid]; exact InBox.opCat t hp hq hr

theorem lin {p q r : List Nat} (hp : InBox (gridOf P P') p) (hq : InBox (gridOf Q Q') q) :
    lin T.grid (opCat t p q r) = opOff t (gridOf P P').prod (gridOf Q Q').prod (NNTile.lin (gridOf P P') p) (NNTile.lin (gridOf Q Q') q)
      (NNTile.lin (gridOf R R') r) := by
  rw [h.grid, lin_opCat t hp.length hq.length]

theorem tshape {p q r : List Nat} (hp : InBox (gridOf P P') p) (hq : InBox (gridOf Q Q') q) :
    T.tshape (opCat t p q r) = opCat t (tileShape P P' p) (tileShape Q Q' q) (tileShape R R' r) := by
  rw [Tensor.tshape, h.shape, h.basetile, tileShape_opCat t h.lP h.lQ (by rw [hp.length, gridOf_length h.lP]) (by rw [hq.length, gridOf_length h.lQ])]

theorem pos (hT : T.WF) : (Pos P ∧ Pos Q ∧ Pos R) ∧ Pos P' ∧ Pos Q' ∧ Pos R' := by
  have h1 := hT.1
  have h2 := hT.2.1
  rw [h.shape, Pos_opCat] at h1
  rw [h.basetile, Pos_opCat] at h2
  exact ⟨h1, h2⟩

theorem glob {p q r i j b : List Nat} (hp : InBox (gridOf P P') p) (hq : InBox (gridOf Q Q') q)
    (hi : InBox (tileShape P P' p) i) (hj : InBox (tileShape Q Q' q) j) :
    globIdx T.basetile (opCat t p q r) (opCat t i j b) = opCat t (globIdx P' p i) (globIdx Q' q j) (globIdx R' r b) := by
  have l1 : p.length = P.length := by rw [hp.length, gridOf_length h.lP]
  have l2 : q.length = Q.length := by rw [hq.length, gridOf_length h.lQ]
  rw [h.basetile, globIdx_opCat t (by rw [l1, h.lP]) (by rw [l2, h.lQ]) (by rw [hi.length, tileShape_length h.lP l1, h.lP])
    (by rw [hj.length, tileShape_length h.lQ l2, h.lQ])]

/-- Contents of a tile as a function of the offset. -/
theorem data {α : Type} {s : Store α} (hT : T.Ready s) {p q r : List Nat} (hp : InBox (gridOf P P') p) (hq : InBox (gridOf Q Q') q)
    (hr : InBox (gridOf R R') r) {x : List Nat → α} (hx : T.Holds s x) :
    ∃ X : Nat → α, (s (T.id, NNTile.lin T.grid (opCat t p q r))).size = (tileShape P P' p).prod * ((tileShape Q Q' q).prod * (tileShape R R' r).prod) ∧
      (∀ c, c < (tileShape P P' p).prod * ((tileShape Q Q' q).prod * (tileShape R R' r).prod) →
        (s (T.id, NNTile.lin T.grid (opCat t p q r))).data c = some (X c)) ∧
      ∀ i j b, InBox (tileShape P P' p) i → InBox (tileShape Q Q' q) j → InBox (tileShape R R' r) b →
        X (opOff t (tileShape P P' p).prod (tileShape Q Q' q).prod (NNTile.lin (tileShape P P' p) i) (NNTile.lin (tileShape Q Q' q) j)
          (NNTile.lin (tileShape R R' r) b)) = x (opCat t (globIdx P' p i) (globIdx Q' q j) (globIdx R' r b)) := by
  have hin := h.inBox hp hq hr
  have hts := h.tshape hp hq (r := r)
  refine ⟨fun c => x (globIdx T.basetile (opCat t p q r) (unlin (T.tshape (opCat t p q r)) c)), ?_, ?_, ?_⟩
  · rw [hT.2.size hin, hts, prod_opCat]
  · intro c hc
    rw [← prod_opCat t, ← hts] at hc
    exact hx.data hT.1 hin hc
  · intro i j b hi hj hb
    show x (globIdx T.basetile (opCat t p q r) (unlin (T.tshape (opCat t p q r)) _)) = _
    rw [← lin_opCat t hi.length hj.length, hts, unlin_lin (InBox.opCat t hi hj hb), h.glob hp hq hi hj]

end Tensor.IsOp

/-- One task of `gemm` on a tile of `C` that holds `w`. -/
theorem gemm_tile {tA tB : TransOp} {A B : Tensor} {M K N R M' K' N' R' : List Nat} {s : Store ℝ} (hA : A.Ready s) (hB : B.Ready s)
    (oA : A.IsOp tA M K R M' K' R') (oB : B.IsOp tB K N R K' N' R') {tM tK tN tR : List Nat}
    (iM : InBox (gridOf M M') tM) (iK : InBox (gridOf K K') tK) (iN : InBox (gridOf N N') tN) (iR : InBox (gridOf R R') tR)
    {x y : List Nat → ℝ} (hx : A.Holds s x) (hy : B.Holds s y) {alpha beta : ℝ} {w : List Nat → List Nat → List Nat → ℝ} {o : Buf ℝ}
    (ho : o.size = (tileShape M M' tM).prod * ((tileShape N N' tN).prod * (tileShape R R' tR).prod))
    (hw : beta ≠ 0 → ∀ i j b, InBox (tileShape M M' tM) i → InBox (tileShape N N' tN) j → InBox (tileShape R R' tR) b →
      o.data (lin (tileShape M M' tM ++ tileShape N N' tN ++ tileShape R R' tR) (i ++ j ++ b)) = some (w i j b)) :
    ∃ b', gemmKernel tA tB (tileShape M M' tM).prod (tileShape N N' tN).prod (tileShape K K' tK).prod (tileShape R R' tR).prod alpha
        (s (A.id, lin A.grid (opCat tA tM tK tR))) (s (B.id, lin B.grid (opCat tB tK tN tR))) beta o = .ok b' ∧ b'.size = o.size ∧
      ∀ i j b, InBox (tileShape M M' tM) i → InBox (tileShape N N' tN) j → InBox (tileShape R R' tR) b →
        b'.data (lin (tileShape M M' tM ++ tileShape N N' tN ++ tileShape R R' tR) (i ++ j ++ b)) =
          some (alpha * ∑ q ∈ box (tileShape K K' tK), x (opCat tA (globIdx M' tM i) (globIdx K' tK q) (globIdx R' tR b)) *
            y (opCat tB (globIdx K' tK q) (globIdx N' tN j) (globIdx R' tR b)) + beta * w i j b) := by
  obtain ⟨X, X1, X2, X3⟩ := oA.data hA iM iK iR hx
  obtain ⟨Y, Y1, Y2, Y3⟩ := oB.data hB iK iN iR hy
  obtain ⟨⟨pM, pK, pR⟩, pM', pK', pR'⟩ := oA.pos hA.1
  obtain ⟨⟨-, pN, -⟩, -, pN', -⟩ := oB.pos hB.1
  have sM := tileShape_pos pM pM' oA.lP iM
  have sK := tileShape_pos pK pK' oA.lQ iK
  have sN := tileShape_pos pN pN' oB.lQ iN
  have sR := tileShape_pos pR pR' oA.lR iR
  have hlin : ∀ i j b, InBox (tileShape M M' tM) i → InBox (tileShape N N' tN) j →
      lin (tileShape M M' tM ++ tileShape N N' tN ++ tileShape R R' tR) (i ++ j ++ b) = lin (tileShape M M' tM) i + (tileShape M M' tM).prod *
        (lin (tileShape N N' tN) j + (tileShape N N' tN).prod * lin (tileShape R R' tR) b) := by
    intro i j b hi hj
    exact lin_opCat .noTrans hi.length hj.length
  obtain ⟨b', e1, e2, e3⟩ := gemm_run (tA := tA) (tB := tB) (alpha := alpha) (beta := beta) ho X1 Y1 X2 Y2
    (z := fun c => let u := unlin (tileShape M M' tM ++ tileShape N N' tN ++ tileShape R R' tR) c
      w (u.take (tileShape M M' tM).length) ((u.drop (tileShape M M' tM).length).take (tileShape N N' tN).length)
        (u.drop ((tileShape M M' tM).length + (tileShape N N' tN).length)))
    (by
      intro hb c hc
      have hin : InBox (tileShape M M' tM ++ tileShape N N' tN ++ tileShape R R' tR) (unlin (tileShape M M' tM ++ tileShape N N' tN ++ tileShape R R' tR) c) :=
        unlin_inBox (by simp [sM, sN, sR]) c
      have hc' : c < (tileShape M M' tM ++ tileShape N N' tN ++ tileShape R R' tR).prod := by
        simp only [List.prod_append, mul_assoc]; exact hc
      obtain ⟨u, b, e, hu, hb'⟩ := hin.exists_split
      obtain ⟨i, j, rfl, hi, hj⟩ := hu.exists_split
      have := hw hb i j b hi hj hb'
      rw [← e, lin_unlin hc'] at this
      rw [this]
      simp only [e]
      have e1 : (i ++ j ++ b).take (tileShape M M' tM).length = i := by rw [← hi.length]; simp
      have e2 : ((i ++ j ++ b).drop (tileShape M M' tM).length).take (tileShape N N' tN).length = j := by
        rw [← hi.length, ← hj.length]; simp
      have e3 : (i ++ j ++ b).drop ((tileShape M M' tM).length + (tileShape N N' tN).length) = b := by
        rw [← hi.length, ← hj.length, ← List.drop_drop]; simp
      rw [e1, e2, e3])
  refine ⟨b', e1, e2, ?_⟩
  intro i j b hi hj hb
  have hl := hlin i j b hi hj
  have h3 := e3 _ _ _ (lin_lt hi) (lin_lt hj) (lin_lt hb)
  rw [← hl] at h3
  rw [h3]
  congr 2
  · congr 1
    rw [sum_box sK]
    apply sum_congr rfl
    intro c hc
    rw [mem_range] at hc
    have hq := unlin_inBox sK c
    have a1 := X3 i _ b hi hq hb
    have a2 := Y3 _ j b hq hj hb
    rw [lin_unlin hc] at a1 a2
    rw [a1, a2]
  · congr 1
    have hin := (hi.append hj).append hb
    show w _ _ _ = _
    simp only [unlin_lin hin]
    have e1 : (i ++ j ++ b).take (tileShape M M' tM).length = i := by rw [← hi.length]; simp
    have e2 : ((i ++ j ++ b).drop (tileShape M M' tM).length).take (tileShape N N' tN).length = j := by
      rw [← hi.length, ← hj.length]; simp
    have e3 : (i ++ j ++ b).drop ((tileShape M M' tM).length + (tileShape N N' tN).length) = b := by
      rw [← hi.length, ← hj.length, ← List.drop_drop]; simp
    rw [e1, e2, e3]

end NNTile
