import Verif.Model.Softmax
import Verif.Lib.MseTensor
import Verif.Lib.Gemm
import Verif.Spec.Softmax
import Verif.Lib.Mse
/-! `softmax`, `softmax_inplace`, `logsumexp`. -/
namespace NNTile
open Finset
variable {α : Type}

theorem Buf.rd_at {b : Buf α} {i j : Nat} (h : i = j) (hj : j < b.size) {v : α} (hv : b.data j = some v) : b.rd i = .ok v := by
  subst h; exact Buf.rd_ok hj hv

theorem softmax_run [FP α] {m n k : Nat} {alpha : α} {mse src o : Buf α} {w x : Nat → α} (ho : o.size = m * (k * n)) (hs : src.size = m * (k * n))
    (hx : ∀ j, j < m * (k * n) → src.data j = some (x j)) (hm : mse.size = 2 * (m * n)) (hw : ∀ j, j < 2 * (m * n) → mse.data j = some (w j)) :
    ∃ b', softmaxKernel m n k mse src alpha o = .ok b' ∧ b'.size = o.size ∧ ∀ i0 i1 i2, i0 < m → i1 < k → i2 < n →
      b'.data (i0 + m * (i1 + k * i2)) =
        some (softmaxVal alpha (x (i0 + m * (i1 + k * i2))) (w (0 + 2 * (i0 + m * i2))) (w (1 + 2 * (i0 + m * i2)))) := by
  refine forN3_puts ho (fun i0 i1 i2 => softmaxVal alpha (x (i0 + m * (i1 + k * i2))) (w (0 + 2 * (i0 + m * i2))) (w (1 + 2 * (i0 + m * i2)))) ?_
  intro i2 i1 i0 h2 h1 h0 d hd he
  have hc := cell3_lt h0 h1 h2
  have hc2 := cell2_lt h0 h2
  have e1 : (i2 * k + i1) * m + i0 = i0 + m * (i1 + k * i2) := by ring
  rw [Buf.rd_at e1 (by omega) (hx _ hc), M.bind_ok, Buf.rd_at (j := 0 + 2 * (i0 + m * i2)) (by ring) (by omega) (hw _ (by omega)), M.bind_ok,
    Buf.rd_at (j := 1 + 2 * (i0 + m * i2)) (by ring) (by omega) (hw _ (by omega)), M.bind_ok, e1, Buf.wr_put hd]

theorem softmaxInplace_run [FP α] {m n k : Nat} {alpha : α} {mse o : Buf α} {w x : Nat → α} (ho : o.size = m * (k * n))
    (hx : ∀ j, j < m * (k * n) → o.data j = some (x j)) (hm : mse.size = 2 * (m * n)) (hw : ∀ j, j < 2 * (m * n) → mse.data j = some (w j)) :
    ∃ b', softmaxInplaceKernel m n k mse alpha o = .ok b' ∧ b'.size = o.size ∧ ∀ i0 i1 i2, i0 < m → i1 < k → i2 < n →
      b'.data (i0 + m * (i1 + k * i2)) =
        some (softmaxVal alpha (x (i0 + m * (i1 + k * i2))) (w (0 + 2 * (i0 + m * i2))) (w (1 + 2 * (i0 + m * i2)))) := by
  refine forN3_puts ho (fun i0 i1 i2 => softmaxVal alpha (x (i0 + m * (i1 + k * i2))) (w (0 + 2 * (i0 + m * i2))) (w (1 + 2 * (i0 + m * i2)))) ?_
  intro i2 i1 i0 h2 h1 h0 d hd he
  have hc := cell3_lt h0 h1 h2
  have hc2 := cell2_lt h0 h2
  have e1 : (i2 * k + i1) * m + i0 = i0 + m * (i1 + k * i2) := by ring
  rw [Buf.rd_at e1 hd (he.trans (hx _ hc)), M.bind_ok, Buf.rd_at (j := 0 + 2 * (i0 + m * i2)) (by ring) (by omega) (hw _ (by omega)), M.bind_ok,
    Buf.rd_at (j := 1 + 2 * (i0 + m * i2)) (by ring) (by omega) (hw _ (by omega)), M.bind_ok, e1, Buf.wr_put hd]

theorem softmaxSizes_eq {S : List Nat} {a : Nat} (ha : a < S.length) : softmaxSizes (2 :: S.eraseIdx a) S a S.length = (mOf S a, nOf S a, kOf S a) := by
  have hp : (2 :: S.eraseIdx a).prod / 2 = mOf S a * nOf S a := by
    rw [List.prod_cons, prod_erase, Nat.mul_div_cancel_left _ (by omega)]
    rfl
  unfold softmaxSizes
  rw [hp]
  split
  · next h => subst h; simp [mOf, kOf]
  · split
    · next h1 h2 =>
      have : nOf S a = 1 := by simp [nOf, List.drop_eq_nil_of_le (show S.length ≤ a + 1 by omega)]
      simp [this, kOf]
    · rfl

namespace Tensor.MseOf
variable {mse src : Tensor} {a : Nat} (h : mse.MseOf src a)
include h

theorem sl_ntiles : mse.ntiles = mse.sl.ntiles := by rw [Tensor.ntiles, h.grid]; simp [Tensor.ntiles]

theorem sl_tindex (i : Nat) : mse.tindex i = 0 :: mse.sl.tindex i := by
  rw [Tensor.tindex, h.grid, unlin]
  simp [Tensor.tindex, Nat.mod_one]

theorem sl_tshapeL (i : Nat) : mse.tshapeL i = 2 :: mse.sl.tshapeL i := by
  rw [Tensor.tshapeL, h.sl_tindex, h.tshape]; rfl

end Tensor.MseOf

/-- The loops are those of the broadcast of a slice. -/
theorem softmaxLoop_eq {mse dst : Tensor} {a : Nat} (hd : dst.WF) (h : mse.MseOf dst a) {submit : Nat → Nat → Nat → Handle → Handle → Nat → M (Task1 α)}
    (task : List Nat → Task1 α)
    (hsub : ∀ t, InBox dst.grid t → submit (mOf (dst.tshape t) a) (nOf (dst.tshape t) a) (kOf (dst.tshape t) a)
      (mse.id, lin mse.sl.grid (t.eraseIdx a)) (dst.id, lin dst.grid t) (lin dst.grid t) = .ok (task t)) :
    softmaxLoop mse dst a submit = sliceLoop mse.sl dst a (fun S h h' i => submit (mOf S a) (nOf S a) (kOf S a) h h' i) := by
  have hsl := h.slice
  have hax := hsl.axis_grid hd
  rw [sliceLoop_ok hd hsl task hsub, softmaxLoop, h.sl_ntiles]
  apply forTasks_ok
  intro i hi
  rw [Tensor.handleL_ok (by rw [h.sl_ntiles]; exact hi), M.bind_ok, vget_ok hax, M.bind_ok]
  apply forTasks_ok
  intro j hj
  have hin' := hsl.insert_inBox hd (mse.sl.tindex_inBox i) hj
  have e := hsub _ hin'
  have e2 : mseTileIndex (mse.tindex i) a j = (mse.sl.tindex i).insertIdx a j := by rw [mseTileIndex, h.sl_tindex]; rfl
  have hlen : (dst.tshape ((mse.sl.tindex i).insertIdx a j)).length = dst.ndim := hd.tshape_length hin'
  have e3 : softmaxSizes (mse.tshapeL i) (dst.tshape ((mse.sl.tindex i).insertIdx a j)) a dst.ndim =
      (mOf (dst.tshape ((mse.sl.tindex i).insertIdx a j)) a, nOf (dst.tshape ((mse.sl.tindex i).insertIdx a j)) a,
        kOf (dst.tshape ((mse.sl.tindex i).insertIdx a j)) a) := by
    have hts : mse.sl.tshapeL i = (dst.tshape ((mse.sl.tindex i).insertIdx a j)).eraseIdx a := by
      rw [← hsl.tshape hd hin', erase_insert]; rfl
    rw [h.sl_tshapeL, hts, ← hlen]
    exact softmaxSizes_eq (by rw [hlen]; exact h.axis)
  rw [erase_insert, Tensor.lin_tindex hi] at e
  simp only [e2, Tensor.handleAt_ok hin', Tensor.tshapeAt_ok hin', M.bind_ok, e3, e]

/-- A tile of pairs, by offset in the tile without the first dimension. -/
theorem mse_tile {mse dst : Tensor} {a : Nat} {s : Store α} (hm : mse.Ready s) (h : mse.MseOf dst a) {w : List Nat → α} (hw : mse.Holds s w)
    {t : List Nat} (ht : InBox mse.sl.grid t) :
    (s (mse.id, lin mse.sl.grid t)).size = 2 * (mse.sl.tshape t).prod ∧
      ∀ j, j < 2 * (mse.sl.tshape t).prod → (s (mse.id, lin mse.sl.grid t)).data j =
        some (w (j % 2 :: globIdx mse.sl.basetile t (unlin (mse.sl.tshape t) (j / 2)))) := by
  have hu := h.tile_inBox ht
  have hsz := hm.2.size hu
  have hts := h.tshape t
  rw [h.lin_grid] at hsz
  refine ⟨by rw [hsz, hts]; simp, fun j hj => ?_⟩
  have hin : InBox (mse.tshape (0 :: t)) (j % 2 :: unlin (mse.sl.tshape t) (j / 2)) := by
    rw [hts]; exact ⟨Nat.mod_lt _ (by omega), unlin_inBox ((h.sl_wf hm.1).tshape_pos ht) _⟩
  have := hw _ (hm.1.glob hu hin).1
  rw [hm.1.get_glob hu hin, h.glob, hts, h.lin_grid] at this
  rw [← this]
  congr 1
  simp only [lin]
  rw [lin_unlin (by omega), Nat.mod_add_div]

/-- The checks of `logsumexp`. -/
theorem logsumexp_check {mse dst : Tensor} (hm : mse.WF) (hd : dst.WF) (hn : mse.ndim = dst.ndim + 1) (h0 : mse.shape.getD 0 0 = 2)
    (h1 : mse.basetile.getD 0 0 = 2) : Check (forCheck (mse.ndim - 1) (fun i => checkPair mse dst (i+1) i))
      (mse.shape = 2 :: dst.shape ∧ mse.basetile = 2 :: dst.basetile) := by
  refine (Check.forCheck (P := fun i => mse.shape.getD (i+1) 0 = dst.shape.getD i 0 ∧ mse.basetile.getD (i+1) 0 = dst.basetile.getD i 0)
    (fun i hi => checkPair_check hm hd (by omega) (by omega))).mono ?_
  have key : ∀ (A B : List Nat), A.length = B.length + 1 → A.getD 0 0 = 2 →
      ((∀ i, i < B.length → A.getD (i+1) 0 = B.getD i 0) ↔ A = 2 :: B) := by
    intro A B hl h0
    cases A with
    | nil => simp at hl
    | cons x A =>
      simp only [List.getD_cons_zero] at h0
      subst h0
      simp only [List.getD_cons_succ, List.cons.injEq, true_and]
      simp only [List.length_cons, Nat.add_right_cancel_iff] at hl
      constructor
      · intro h
        apply List.ext_getElem hl
        intro i g1 g2
        have := h i g2
        simpa [g1, g2] using this
      · rintro rfl i _; rfl
  have k1 := key mse.shape dst.shape hn h0
  have k2 := key mse.basetile dst.basetile (by rw [hm.2.2, hd.2.2]; exact hn) h1
  rw [← k1, ← k2, hn, hd.2.2]
  simp only [Nat.add_sub_cancel, Tensor.ndim]
  exact forall₂_and

theorem set_insert {I : List Nat} {a L : Nat} (ha : a < I.length) : (I.eraseIdx a).insertIdx a L = I.set a L := by
  have := insert_erase (I := I.set a L) (a := a) (by simpa using ha)
  simpa [List.eraseIdx_set_eq, ha] using this

theorem expWeight_nonneg (m : ℝ) (v : XReal) : 0 ≤ expWeight m v := by cases v <;> simp [expWeight, Real.exp_nonneg]

theorem sum_expWeight_pos {n : Nat} {r : Nat → XReal} {l : Nat} {b : ℝ} (hl : l < n) (hb : r l = .fin b) (m : ℝ) :
    0 < ∑ j ∈ range n, expWeight m (r j) :=
  sum_pos' (fun _ _ => expWeight_nonneg _ _) ⟨l, mem_range.2 hl, by rw [hb]; exact Real.exp_pos _⟩

/-- The value written by the kernels. -/
theorem softmax_value {n l : Nat} {r : Nat → XReal} {mx sm : XReal} (alpha : ℝ) (h : IsMaxSumExp n r mx sm) (hl : l < n) (hr : (r l).NumOrMask) :
    (if FP.isInf (r l) then 0 else .fin alpha * FP.exp (r l - mx) / sm) = XReal.fin (softmaxSpec alpha n r l) := by
  rcases hr with hr | ⟨b, hr⟩
  · simp [hr, softmaxSpec, expWeight]
  · rcases h with ⟨h1, -⟩ | ⟨m, h1, -, -, h4⟩
    · rw [h1 l hl] at hr; simp at hr
    · have hp := sum_expWeight_pos hl hr m
      have e : ∑ j ∈ range n, expWeight 0 (r j) = (∑ j ∈ range n, expWeight m (r j)) * Real.exp m := by
        rw [sum_mul]
        exact sum_congr rfl (fun i _ => by have := Mse.expWeight_shift m 0 (r i); simpa using this.symm)
      rw [hr, h1, h4]
      simp only [XReal.isInf_fin, XReal.fin_sub, XReal.exp_fin, XReal.fin_mul, Bool.false_eq_true, if_false]
      rw [XReal.fin_div _ hp.ne', softmaxSpec, e, hr]
      congr 1
      simp only [expWeight, sub_zero, Real.exp_sub]
      have := Real.exp_pos m
      field_simp

theorem logsumexp_value {n : Nat} {r : Nat → XReal} {mx sm : XReal} (h : IsMaxSumExp n r mx sm) :
    mx + FP.log sm = logsumexpSpec n r := by
  rcases h with ⟨h1, h2, h3⟩ | ⟨m, h1, ⟨l, hl, hr⟩, -, h4⟩
  · rw [h2, h3, logsumexpSpec, if_pos h1]
    show XReal.add _ (XReal.log _) = _
    simp [XReal.log, XReal.add]
  · have hp := sum_expWeight_pos hl hr m
    have e : ∑ j ∈ range n, expWeight 0 (r j) = (∑ j ∈ range n, expWeight m (r j)) * Real.exp m := by
      rw [sum_mul]
      exact sum_congr rfl (fun i _ => by have := Mse.expWeight_shift m 0 (r i); simpa using this.symm)
    rw [logsumexpSpec, if_neg (fun hh => by rw [hh l hl] at hr; simp at hr), h1, h4, e, Real.log_mul hp.ne' (Real.exp_pos m).ne', Real.log_exp]
    show XReal.add _ (XReal.log _) = _
    simp only [XReal.log, hp, if_true, XReal.add]
    rw [add_comm]

end NNTile
