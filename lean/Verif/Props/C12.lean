import Verif.Lib.Slice
import Verif.Lib.RealFP
import Verif.Lib.Store
/-!
# C12 — broadcast of a slice: `add_slice`, `add_slice3`, `prod_slice`

`I.eraseIdx a` is the index `I` without its entry number `a`: the index of the slice that belongs to `I`. The theorems hold for all
shapes, tilings, axes and scalars; those over an arbitrary `FP α` are bit-exact.
-/
namespace NNTile
section anyScalar
variable {α : Type} [FP α]

/-- `add_slice`: `dst[i,l,j] = beta*dst[i,l,j] + alpha*src[i,j]`. If `beta` is zero, `dst` may be undefined before. -/
theorem C12_add_slice_bits {src dst : Tensor} {a : Nat} {s : Store α} (hs : src.Ready s) (hd : dst.Ready s) (hid : src.id ≠ dst.id)
    (h : src.SliceOf dst a) (alpha beta : α) (x y : List Nat → α) (hx : src.Holds s x) (hy : FP.eqb beta 0 = false → dst.Holds s y) :
    Computes (addSliceAsync alpha src beta dst a) s dst
      (fun I => if FP.eqb beta 0 then alpha * x (I.eraseIdx a) else beta * y I + alpha * x (I.eraseIdx a)) := by
  have hn : dst.ndim = src.ndim + 1 := by
    have h1 := h.axis
    simp only [Tensor.ndim, h.shape, List.length_eraseIdx_of_lt h.axis]; omega
  have hc := (checkErase_check hd.1 hs.1 (a := a) h.axis hn).ok ⟨h.shape, h.basetile⟩
  have e : addSliceAsync alpha src beta dst a = sliceLoop src dst a (fun S h h' _ =>
      .ok (submitAddSlice (mOf S a) (nOf S a) (kOf S a) alpha h beta h')) := by
    simp only [addSliceAsync]
    rw [throwIf_neg (by omega), M.bind_ok, throwIf_neg (by omega), M.bind_ok, throwIf_neg (by have := h.axis; simp only [Tensor.ndim]; omega), M.bind_ok]
    simp only [Int.toNat_natCast, hc, M.bind_ok]
  rw [e]
  refine sliceLoop_run hd h (fun t => submitAddSlice (mOf (dst.tshape t) a) (nOf (dst.tshape t) a) (kOf (dst.tshape t) a) alpha
    (src.id, lin src.grid (t.eraseIdx a)) beta (dst.id, lin dst.grid t)) (fun t ht => ⟨rfl, rfl, by simp [submitAddSlice, task1, hid]⟩) _ ?_
  intro t ht
  have hte := h.tile_inBox hd.1 ht
  have hsz := hd.2.size ht
  have hax : a < (dst.tshape t).length := by rw [hd.1.tshape_length ht]; exact h.axis
  have hss : (s (src.id, lin src.grid (t.eraseIdx a))).size = mOf (dst.tshape t) a * nOf (dst.tshape t) a := by
    rw [hs.2.size hte, h.tshape hd.1 ht, prod_erase]; rfl
  rw [size3 hax] at hsz
  obtain ⟨b', e1, e2, e3⟩ := addSlice_run (m := mOf (dst.tshape t) a) (n := nOf (dst.tshape t) a) (k := kOf (dst.tshape t) a) (alpha := alpha)
    (beta := beta) (src := s (src.id, lin src.grid (t.eraseIdx a)))
    (b := if FP.eqb beta 0 then Buf.undef (s (dst.id, lin dst.grid t)).size else s (dst.id, lin dst.grid t))
    (x := fun j => x (globIdx src.basetile (t.eraseIdx a) (unlin (src.tshape (t.eraseIdx a)) j)))
    (y := fun j => y (globIdx dst.basetile t (unlin (dst.tshape t) j)))
    (by split <;> simpa using hsz) hss
    (fun j hj => hx.data hs.1 hte (by rw [← hss, hs.2.size hte] at hj; exact hj))
    (by
      intro hb j hj
      rw [← hsz, hd.2.size ht] at hj
      simp only [hb]
      exact (hy hb).data hd.1 ht hj)
  refine ⟨b', ?_, by rw [e2]; split <;> simp, ?_⟩
  · cases hb : FP.eqb beta 0 <;> simpa [submitAddSlice, task1, Task1.inp, hb] using e1
  · intro l hl
    obtain ⟨i1, i0, i2, g1, g0, g2, q1, q2, -⟩ := view3 hax hl
    rw [q1, e3 i1 i0 i2 g1 g0 g2, ← q1, ← q2, ← h.tshape hd.1 ht, unlin_lin hl, unlin_lin (by rw [h.tshape hd.1 ht]; exact hl.erase a),
      h.glob hd.1 ht hl]

/-- `add_slice3`: `dst[i,l,j] = beta*src2[i,l,j] + alpha*src1[i,j]`, whatever was in `dst` before. -/
theorem C12_add_slice3_bits {src1 src2 dst : Tensor} {a : Nat} {s : Store α} (hs : src1.Ready s) (hs2 : src2.Ready s) (hd : dst.Ready s)
    (hid : src1.id ≠ dst.id) (h2 : src2.Like dst)
    (h : src1.SliceOf dst a) (alpha beta : α) (x y : List Nat → α) (hx : src1.Holds s x) (hy : FP.eqb beta 0 = false → src2.Holds s y) :
    Computes (addSlice3Async alpha src1 beta src2 dst a) s dst
      (fun I => if FP.eqb beta 0 then alpha * x (I.eraseIdx a) else beta * y I + alpha * x (I.eraseIdx a)) := by
  obtain ⟨hid2, hsh2, hbt2⟩ := h2
  have hn : dst.ndim = src1.ndim + 1 := by
    have h1 := h.axis
    simp only [Tensor.ndim, h.shape, List.length_eraseIdx_of_lt h.axis]; omega
  have hg2 : src2.grid = dst.grid := by rw [Tensor.grid, hsh2, hbt2]; rfl
  have ht2 : ∀ t, src2.tshape t = dst.tshape t := fun t => by rw [Tensor.tshape, hsh2, hbt2]; rfl
  have hc := (checkErase_check hd.1 hs.1 (a := a) h.axis hn).ok ⟨h.shape, h.basetile⟩
  have e : addSlice3Async alpha src1 beta src2 dst a = sliceLoop src1 dst a (fun S h h' i => do
      let h2 ← src2.handleL i
      .ok (submitAddSlice3 (mOf S a) (nOf S a) (kOf S a) alpha h beta h2 h')) := by
    simp only [addSlice3Async]
    rw [throwIf_neg (by omega), M.bind_ok, throwIf_neg (by simp [Tensor.ndim, hsh2]), M.bind_ok, throwIf_neg (by omega), M.bind_ok,
      throwIf_neg (by have := h.axis; simp only [Tensor.ndim]; omega), M.bind_ok]
    simp only [Int.toNat_natCast, hc, M.bind_ok]
    rw [throwIf_neg (by simp [hsh2]), M.bind_ok, throwIf_neg (by simp [hbt2]), M.bind_ok]
  rw [e]
  refine sliceLoop_run hd h (fun t => submitAddSlice3 (mOf (dst.tshape t) a) (nOf (dst.tshape t) a) (kOf (dst.tshape t) a) alpha
    (src1.id, lin src1.grid (t.eraseIdx a)) beta (src2.id, lin dst.grid t) (dst.id, lin dst.grid t)) (fun t ht => ⟨?_, rfl, by
      simp [submitAddSlice3, task2, hid, hid2]⟩) _ ?_
  · rw [Tensor.handleL_ok (by rw [Tensor.ntiles, hg2]; exact lin_lt ht)]; rfl
  intro t ht
  have hte := h.tile_inBox hd.1 ht
  have hsz := hd.2.size ht
  have hax : a < (dst.tshape t).length := by rw [hd.1.tshape_length ht]; exact h.axis
  have hss : (s (src1.id, lin src1.grid (t.eraseIdx a))).size = mOf (dst.tshape t) a * nOf (dst.tshape t) a := by
    rw [hs.2.size hte, h.tshape hd.1 ht, prod_erase]; rfl
  have hss2 := hs2.2.size (t := t) (by rw [hg2]; exact ht)
  rw [hg2, ht2] at hss2
  rw [size3 hax] at hsz
  obtain ⟨b', e1, e2, e3⟩ := addSlice3_run (m := mOf (dst.tshape t) a) (n := nOf (dst.tshape t) a) (k := kOf (dst.tshape t) a) (alpha := alpha)
    (beta := beta) (src := s (src1.id, lin src1.grid (t.eraseIdx a))) (src2 := s (src2.id, lin dst.grid t))
    (b := Buf.undef (s (dst.id, lin dst.grid t)).size)
    (x := fun j => x (globIdx src1.basetile (t.eraseIdx a) (unlin (src1.tshape (t.eraseIdx a)) j)))
    (y := fun j => y (globIdx dst.basetile t (unlin (dst.tshape t) j)))
    hsz hss
    (fun j hj => hx.data hs.1 hte (by rw [← hss, hs.2.size hte] at hj; exact hj)) (by rw [hss2, size3 hax])
    (by
      intro hb j hj
      rw [← hsz, hd.2.size ht] at hj
      have := (hy hb).data hs2.1 (t := t) (by rw [hg2]; exact ht) (by rw [ht2]; exact hj)
      rw [hg2, ht2, hbt2] at this
      exact this)
  refine ⟨b', ?_, by rw [e2]; rfl, ?_⟩
  · simpa [submitAddSlice3, task2, Task1.inp] using e1
  · intro l hl
    obtain ⟨i1, i0, i2, g1, g0, g2, q1, q2, -⟩ := view3 hax hl
    rw [q1, e3 i1 i0 i2 g1 g0 g2, ← q1, ← q2, ← h.tshape hd.1 ht, unlin_lin hl, unlin_lin (by rw [h.tshape hd.1 ht]; exact hl.erase a),
      h.glob hd.1 ht hl]

/-- `prod_slice`: `dst[i,l,j] = dst[i,l,j] * (alpha*src[i,j])`. -/
theorem C12_prod_slice {src dst : Tensor} {a : Nat} {s : Store α} (hs : src.Ready s) (hd : dst.Ready s) (hid : src.id ≠ dst.id)
    (h : src.SliceOf dst a) (alpha : α) (x y : List Nat → α) (hx : src.Holds s x) (hy : dst.Holds s y) :
    Computes (prodSliceAsync src alpha dst a) s dst (fun I => y I * (alpha * x (I.eraseIdx a))) := by
  have hn : dst.ndim = src.ndim + 1 := by
    have h1 := h.axis
    simp only [Tensor.ndim, h.shape, List.length_eraseIdx_of_lt h.axis]; omega
  have hc := (checkErase_check hd.1 hs.1 (a := a) h.axis hn).ok ⟨h.shape, h.basetile⟩
  have e : prodSliceAsync src alpha dst a = sliceLoop src dst a (fun S h h' _ =>
      .ok (submitProdSlice (mOf S a) (nOf S a) (kOf S a) alpha h h')) := by
    simp only [prodSliceAsync]
    rw [throwIf_neg (by omega), M.bind_ok, throwIf_neg (by omega), M.bind_ok, throwIf_neg (by have := h.axis; simp only [Tensor.ndim]; omega), M.bind_ok]
    simp only [Int.toNat_natCast, hc, M.bind_ok]
  rw [e]
  refine sliceLoop_run hd h (fun t => submitProdSlice (mOf (dst.tshape t) a) (nOf (dst.tshape t) a) (kOf (dst.tshape t) a) alpha
    (src.id, lin src.grid (t.eraseIdx a)) (dst.id, lin dst.grid t)) (fun t ht => ⟨rfl, rfl, by simp [submitProdSlice, task1, hid]⟩) _ ?_
  intro t ht
  have hte := h.tile_inBox hd.1 ht
  have hsz := hd.2.size ht
  have hax : a < (dst.tshape t).length := by rw [hd.1.tshape_length ht]; exact h.axis
  have hss : (s (src.id, lin src.grid (t.eraseIdx a))).size = mOf (dst.tshape t) a * nOf (dst.tshape t) a := by
    rw [hs.2.size hte, h.tshape hd.1 ht, prod_erase]; rfl
  rw [size3 hax] at hsz
  obtain ⟨b', e1, e2, e3⟩ := prodSlice_run (m := mOf (dst.tshape t) a) (n := nOf (dst.tshape t) a) (k := kOf (dst.tshape t) a) (alpha := alpha)
    (src := s (src.id, lin src.grid (t.eraseIdx a))) (b := s (dst.id, lin dst.grid t))
    (x := fun j => x (globIdx src.basetile (t.eraseIdx a) (unlin (src.tshape (t.eraseIdx a)) j)))
    (y := fun j => y (globIdx dst.basetile t (unlin (dst.tshape t) j)))
    hsz hss
    (fun j hj => hx.data hs.1 hte (by rw [← hss, hs.2.size hte] at hj; exact hj))
    (by
      intro j hj
      rw [← hsz, hd.2.size ht] at hj
      exact hy.data hd.1 ht hj)
  refine ⟨b', ?_, e2, ?_⟩
  · simpa [submitProdSlice, task1, Task1.inp] using e1
  · intro l hl
    obtain ⟨i1, i0, i2, g1, g0, g2, q1, q2, -⟩ := view3 hax hl
    rw [q1, e3 i1 i0 i2 g1 g0 g2, ← q1, ← q2, ← h.tshape hd.1 ht, unlin_lin hl, unlin_lin (by rw [h.tshape hd.1 ht]; exact hl.erase a),
      h.glob hd.1 ht hl]

/-! ### Rejected arguments -/

/-- `add_slice` throws unless `axis` is a dimension of `dst` and `src` has the shape and tiling of `dst` without `axis`. -/
theorem C12_add_slice_rejects {src dst : Tensor} (hs : src.WF) (hd : dst.WF) (alpha beta : α) (axis : Int)
    (h : ¬ ∃ a : Nat, axis = a ∧ src.SliceOf dst a) : Throws (addSliceAsync alpha src beta dst axis) := by
  simp only [addSliceAsync]
  refine throws_step fun h1 => throws_step fun h2 => throws_step fun h3 => ?_
  refine (checkErase_check hd hs (a := axis.toNat) (by simp only [ge_iff_le] at h3; omega) (by simpa using h1)).throws ?_
  rintro ⟨h4, h5⟩
  exact h ⟨axis.toNat, by omega, by simp only [Tensor.ndim] at h3; omega, h4, h5⟩

/-- `add_slice3` in addition requires `src2` to have the shape and tiling of `dst`. -/
theorem C12_add_slice3_rejects {src1 src2 dst : Tensor} (hs : src1.WF) (hd : dst.WF) (alpha beta : α) (axis : Int)
    (h : ¬ ∃ a : Nat, axis = a ∧ src1.SliceOf dst a ∧ src2.shape = dst.shape ∧ src2.basetile = dst.basetile) :
    Throws (addSlice3Async alpha src1 beta src2 dst axis) := by
  simp only [addSlice3Async]
  refine throws_step fun h1 => throws_step fun _ => throws_step fun h2 => throws_step fun h3 => ?_
  refine (checkErase_check hd hs (a := axis.toNat) (by simp only [ge_iff_le] at h3; omega) (by simpa using h1)).throws_step ?_
  rintro ⟨h4, h5⟩
  refine throws_step fun h6 => throws_pos fun h7 => ?_
  simp only [ne_eq, not_not] at h6
  exact h ⟨axis.toNat, by omega, ⟨by simp only [Tensor.ndim] at h3; omega, h4, h5⟩, h6.symm, h7.symm⟩

theorem C12_prod_slice_rejects {src dst : Tensor} (hs : src.WF) (hd : dst.WF) (alpha : α) (axis : Int)
    (h : ¬ ∃ a : Nat, axis = a ∧ src.SliceOf dst a) : Throws (prodSliceAsync src alpha dst axis) := by
  simp only [prodSliceAsync]
  refine throws_step fun h1 => throws_step fun h2 => throws_step fun h3 => ?_
  refine (checkErase_check hd hs (a := axis.toNat) (by simp only [ge_iff_le] at h3; omega) (by simpa using h1)).throws ?_
  rintro ⟨h4, h5⟩
  exact h ⟨axis.toNat, by omega, by simp only [Tensor.ndim] at h3; omega, h4, h5⟩

end anyScalar

/-! ### Exact arithmetic -/

/-- `add_slice` over the reals: one formula for all `alpha`, `beta`; nothing is assumed about the old `dst` if `beta = 0`. -/
theorem C12_add_slice {src dst : Tensor} {a : Nat} {s : Store ℝ} (hs : src.Ready s) (hd : dst.Ready s) (hid : src.id ≠ dst.id)
    (h : src.SliceOf dst a) (alpha beta : ℝ) (x y : List Nat → ℝ) (hx : src.Holds s x) (hy : beta ≠ 0 → dst.Holds s y) :
    Computes (addSliceAsync alpha src beta dst a) s dst (fun I => beta * y I + alpha * x (I.eraseIdx a)) := by
  have := C12_add_slice_bits hs hd hid h alpha beta x y hx (fun hb => hy (by simpa using hb))
  convert this using 2 with I
  by_cases hb : beta = 0 <;> simp [hb]

theorem C12_add_slice3 {src1 src2 dst : Tensor} {a : Nat} {s : Store ℝ} (hs : src1.Ready s) (hs2 : src2.Ready s) (hd : dst.Ready s)
    (hid : src1.id ≠ dst.id) (h2 : src2.Like dst) (h : src1.SliceOf dst a) (alpha beta : ℝ) (x y : List Nat → ℝ) (hx : src1.Holds s x)
    (hy : beta ≠ 0 → src2.Holds s y) :
    Computes (addSlice3Async alpha src1 beta src2 dst a) s dst (fun I => alpha * x (I.eraseIdx a) + beta * y I) := by
  have := C12_add_slice3_bits hs hs2 hd hid h2 h alpha beta x y hx (fun hb => hy (by simpa using hb))
  convert this using 2 with I
  by_cases hb : beta = 0 <;> simp [hb, add_comm]

/-- The hypotheses are met by a `5×7×4` tensor cut into `2×3×4` tiles with the slice along axis 1. -/
example : ∃ (src src2 dst : Tensor) (s : Store ℝ) (x y z : List Nat → ℝ), dst.ntiles = 9 ∧ src.Ready s ∧ src2.Ready s ∧ dst.Ready s ∧
    src.id ≠ dst.id ∧ src2.Like dst ∧ src.SliceOf dst 1 ∧ src.Holds s x ∧ src2.Holds s y ∧ dst.Holds s z := by
  obtain ⟨s, h1, h2, h3⟩ := exists_store3 (A := ⟨0, [5,4], [2,4]⟩) (B := ⟨1, [5,7,4], [2,3,4]⟩) (C := ⟨2, [5,7,4], [2,3,4]⟩)
    (fun I => (lin [5,4] I : ℝ)) (fun I => (lin [5,7,4] I : ℝ)) (fun _ => (1 : ℝ)) (by decide) (by decide) (by decide) (by decide) (by decide) (by decide)
  exact ⟨_, _, _, s, _, _, _, by decide, h1.1, h2.1, h3.1, by decide, ⟨by decide, by decide, by decide⟩, ⟨by decide, by decide, by decide⟩, h1.2, h2.2, h3.2⟩

end NNTile
