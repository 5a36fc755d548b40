import Verif.Model.Fiber
import Verif.Spec.Ops
import Verif.Lib.Proj
import Verif.Lib.Puts
/-! Lemmas about broadcasts of a fiber. -/
namespace NNTile
variable {α : Type}

theorem pos4 (i1 b n k i2 m i0 : Nat) : ((i1 + b*n)*k + i2)*m + i0 = cell4 m k n i0 i2 i1 b := by unfold cell4; ring
theorem pos3f (i1 k i2 m i0 : Nat) : (i1*k + i2)*m + i0 = i0 + m * (i2 + k * i1) := by ring

theorem addFiber_run [FP α] {m n k bt : Nat} {alpha beta : α} {src o : Buf α} {x y : Nat → α}
    (ho : o.size = m * (k * (n * bt))) (hs : src.size = k * bt) (hx : ∀ j, j < k * bt → src.data j = some (x j))
    (hy : FP.eqb beta 0 = false → ∀ j, j < m * (k * (n * bt)) → o.data j = some (y j)) :
    ∃ b', addFiberKernel m n k bt alpha src beta o = .ok b' ∧ b'.size = o.size ∧ ∀ i0 i2 i1 b, i0 < m → i2 < k → i1 < n → b < bt →
      b'.data (cell4 m k n i0 i2 i1 b) = some (if FP.eqb beta 0 then alpha * x (i2 + k * b)
        else beta * y (cell4 m k n i0 i2 i1 b) + alpha * x (i2 + k * b)) := by
  have hpre : ∀ b i2, b < bt → i2 < k → src.rd (i2 + b*k) = .ok (x (i2 + k * b)) := by
    intro b i2 hb h2
    rw [Nat.mul_comm b k]
    exact Buf.rd_ok (hs ▸ cell2_lt h2 hb) (hx _ (cell2_lt h2 hb))
  unfold addFiberKernel
  cases hz : FP.eqb beta 0
  · simp only [Bool.false_eq_true, if_false]
    refine forN_fiber4 ho (fun i0 i2 i1 b => beta * y (cell4 m k n i0 i2 i1 b) + alpha * x (i2 + k * b)) hpre ?_
    intro b i2 i1 i0 hb h2 h1 h0 d hd he
    rw [pos4, Buf.rd_ok hd (he.trans (hy hz _ (cell4_lt h0 h2 h1 hb))), M.bind_ok, Buf.wr_put hd]
  · simp only [if_true]
    refine forN_fiber4 ho (fun i0 i2 i1 b => alpha * x (i2 + k * b)) hpre ?_
    intro b i2 i1 i0 hb h2 h1 h0 d hd he
    rw [pos4, Buf.wr_put hd]

theorem prodFiber_run [FP α] {m n k : Nat} {alpha : α} {src o : Buf α} {x y : Nat → α}
    (ho : o.size = m * (k * n)) (hs : src.size = k) (hx : ∀ j, j < k → src.data j = some (x j))
    (hy : ∀ j, j < m * (k * n) → o.data j = some (y j)) :
    ∃ b', prodFiberKernel m n k alpha src o = .ok b' ∧ b'.size = o.size ∧ ∀ i0 i2 i1, i0 < m → i2 < k → i1 < n →
      b'.data (i0 + m * (i2 + k * i1)) = some (y (i0 + m * (i2 + k * i1)) * (alpha * x i2)) := by
  unfold prodFiberKernel
  refine forN_fiber3 ho (fun i0 i2 i1 => y (i0 + m * (i2 + k * i1)) * (alpha * x i2)) (val := x) (fun i2 h2 => Buf.rd_ok (hs ▸ h2) (hx _ h2)) ?_
  intro i2 i1 i0 h2 h1 h0 d hd he
  rw [pos3f, Buf.rd_ok hd (he.trans (hy _ (cell3_lt h0 h2 h1))), M.bind_ok, Buf.wr_put hd]

theorem prodFiber3_run [FP α] {m n k : Nat} {alpha : α} {src src2 o : Buf α} {x y : Nat → α}
    (ho : o.size = m * (k * n)) (hs : src.size = k) (hx : ∀ j, j < k → src.data j = some (x j))
    (hs2 : src2.size = m * (k * n)) (hy : ∀ j, j < m * (k * n) → src2.data j = some (y j)) :
    ∃ b', prodFiber3Kernel m n k alpha src src2 o = .ok b' ∧ b'.size = o.size ∧ ∀ i0 i2 i1, i0 < m → i2 < k → i1 < n →
      b'.data (i0 + m * (i2 + k * i1)) = some (alpha * x i2 * y (i0 + m * (i2 + k * i1))) := by
  unfold prodFiber3Kernel
  refine forN_fiber3 ho (fun i0 i2 i1 => alpha * x i2 * y (i0 + m * (i2 + k * i1))) (val := x) (fun i2 h2 => Buf.rd_ok (hs ▸ h2) (hx _ h2)) ?_
  intro i2 i1 i0 h2 h1 h0 d hd he
  rw [pos3f, Buf.rd_ok (hs2 ▸ cell3_lt h0 h2 h1) (hy _ (cell3_lt h0 h2 h1)), M.bind_ok, Buf.wr_put hd]

/-! ### Fibers as projections -/

/-- The dimensions of a fiber. -/
def fiberDims (n a b : Nat) : List Nat := a :: List.range' (n - b) b

theorem drop_eq_map_range' (l : List Nat) (i : Nat) : l.drop i = (List.range' i (l.length - i)).map (fun p => l.getD p 0) := by
  apply List.ext_getElem
  · simp
  · intro j h1 h2
    simp only [List.length_map, List.length_range'] at h2
    simp only [List.getElem_drop, List.getElem_map, List.getElem_range', Nat.one_mul]
    rw [getD_eq_getElem (by omega)]

theorem fiberIdx_eq {n a b : Nat} {l : List Nat} (hl : l.length = n) (hb : b ≤ n) : proj (fiberDims n a b) l = fiberIdx a b l := by
  subst hl
  simp only [proj, fiberDims, List.map_cons, fiberIdx, drop_eq_map_range' l (l.length - b), show l.length - (l.length - b) = b by omega]

theorem Tensor.FiberOf.projOf {src dst : Tensor} {a b : Nat} (h : src.FiberOf dst a b) (hd : dst.WF) :
    src.ProjOf dst (fiberDims dst.shape.length a b) := by
  have := h.axis
  refine ⟨?_, ?_, ?_⟩
  · intro p hp
    simp only [fiberDims, List.mem_cons, List.mem_range'] at hp
    rcases hp with rfl | ⟨i, hi, rfl⟩ <;> omega
  · rw [fiberIdx_eq rfl (by omega), h.shape]; rfl
  · rw [fiberIdx_eq hd.2.2 (by omega), h.basetile, fiberIdx, hd.2.2]

/-- A fiber check. -/
theorem checkFiber_check {src dst : Tensor} (hs : src.WF) (hd : dst.WF) {a b : Nat} (ha : a + b < dst.ndim) (hn : src.ndim = b + 1) :
    Check (checkFiber src dst a b) (src.FiberOf dst a b) := by
  refine ((checkPair_check hs hd (i := 0) (j := a) (by omega) (by omega)).bind (fun _ => Check.forCheck
    (P := fun i => src.shape.getD (i+1) 0 = dst.shape.getD (dst.ndim - b + i) 0 ∧ src.basetile.getD (i+1) 0 = dst.basetile.getD (dst.ndim - b + i) 0)
    (fun i hi => checkPair_check hs hd (by omega) (by omega)))).mono ?_
  have key : ∀ A B : List Nat, A.length = b + 1 → B.length = dst.shape.length →
      ((A.getD 0 0 = B.getD a 0 ∧ ∀ i, i < b → A.getD (i+1) 0 = B.getD (dst.ndim - b + i) 0) ↔
        A = B.getD a 0 :: B.drop (dst.shape.length - b)) := by
    intro A B hA hB
    simp only [Tensor.ndim] at ha ⊢
    constructor
    · rintro ⟨h1, h2⟩
      apply List.ext_getElem
      · simp [hA, hB]; omega
      · intro i h3 h4
        cases i with
        | zero => rw [getD_eq_getElem (by omega)] at h1; simpa using h1
        | succ i =>
          have := h2 i (by omega)
          rw [getD_eq_getElem h3, getD_eq_getElem (by omega)] at this
          simpa using this
    · intro h
      rw [h]
      refine ⟨rfl, fun i hi => ?_⟩
      rw [List.getD_cons_succ, getD_eq_getElem (by simp; omega), getD_eq_getElem (by omega), List.getElem_drop]
  have k1 := key src.shape dst.shape hn rfl
  have k2 := key src.basetile dst.basetile (by rw [hs.2.2]; exact hn) hd.2.2
  constructor
  · rintro ⟨⟨h1, h2⟩, h3⟩
    exact ⟨ha, k1.1 ⟨h1, fun i hi => (h3 i hi).1⟩, k2.1 ⟨h2, fun i hi => (h3 i hi).2⟩⟩
  · rintro ⟨_, h2, h3⟩
    have q1 := k1.2 h2
    have q2 := k2.2 h3
    exact ⟨⟨q1.1, q2.1⟩, fun i hi => ⟨q1.2 i hi, q2.2 i hi⟩⟩

/-! ### Four-dimensional view -/

/-- Number of elements of the batch part. -/
def btOf (S : List Nat) (b : Nat) : Nat := (S.drop (S.length - b)).prod
/-- Number of elements between axis and batch part. -/
def midOf (S : List Nat) (a b : Nat) : Nat := ((S.drop (a+1)).take (S.length - b - (a+1))).prod

theorem nOf_mid {S : List Nat} {a b : Nat} (h : a + b < S.length) : nOf S a = midOf S a b * btOf S b := by
  rw [nOf, midOf, btOf, ← prod_take_drop (S.length - b - (a+1)) (S.drop (a+1)), List.drop_drop]
  congr 3
  omega

theorem nOf_div {S : List Nat} {a b : Nat} (h : a + b < S.length) (hS : Pos S) : nOf S a / btOf S b = midOf S a b := by
  rw [nOf_mid h, Nat.mul_div_cancel _ (show 0 < btOf S b from (hS.drop _).prod)]

theorem size4 {S : List Nat} {a b : Nat} (h : a + b < S.length) : S.prod = mOf S a * (kOf S a * (midOf S a b * btOf S b)) := by
  rw [← nOf_mid h]; exact prod_axis (by omega)

theorem sizeF {S : List Nat} {a b : Nat} : (fiberIdx a b S).prod = kOf S a * btOf S b := by simp [fiberIdx, kOf, btOf]

theorem view4 {S l : List Nat} {a b : Nat} (h : a + b < S.length) (hl : InBox S l) :
    ∃ i0 i2 i1 c, i0 < mOf S a ∧ i2 < kOf S a ∧ i1 < midOf S a b ∧ c < btOf S b ∧
      lin S l = cell4 (mOf S a) (kOf S a) (midOf S a b) i0 i2 i1 c ∧ lin (fiberIdx a b S) (fiberIdx a b l) = i2 + kOf S a * c := by
  have hll := hl.length
  refine ⟨lin (S.take a) (l.take a), l.getD a 0, lin ((S.drop (a+1)).take (S.length - b - (a+1))) ((l.drop (a+1)).take (S.length - b - (a+1))),
    lin (S.drop (S.length - b)) (l.drop (S.length - b)), lin_lt (hl.take a), hl.getD (by omega), lin_lt ((hl.drop _).take _), lin_lt (hl.drop _), ?_, ?_⟩
  · rw [lin_axis (show a < S.length by omega) hll, lin_take_drop (S.length - b - (a+1)) (S := S.drop (a+1)) (by simp [hll])]
    simp only [List.drop_drop, show a + 1 + (S.length - b - (a+1)) = S.length - b by omega]
    rfl
  · simp only [fiberIdx, lin_cons, hll]
    rfl

end NNTile
