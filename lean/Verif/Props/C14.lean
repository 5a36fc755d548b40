import Verif.Lib.Reduce
import Verif.Lib.Store
/-!
# C14 — reductions of a slice: `sum_slice`, `sumprod_slice` (exact arithmetic)

`I.insertIdx a L` is the index `I` of `dst` with `L` inserted as entry number `a`. The theorems hold for all shapes, tilings, axes, scalars and for
both values of `redux` (sequential meaning; replicas are treated in C27).
-/
namespace NNTile
open Finset

/-- `sum_slice`: `dst[i,j] = beta*dst[i,j] + alpha * sum_l src[i,l,j]`. If `beta = 0` nothing is assumed about the old `dst`. -/
theorem C14_sum_slice {src dst : Tensor} {a : Nat} {s : Store ℝ} (hs : src.Ready s) (hd : dst.Ready s) (hid : src.id ≠ dst.id)
    (h : dst.SliceOf src a) (alpha beta : ℝ) (redux : Bool) (x y : List Nat → ℝ) (hx : src.Holds s x) (hy : beta ≠ 0 → dst.Holds s y) :
    Computes (sumSliceAsync alpha src beta dst a redux) s dst
      (fun I => beta * y I + alpha * ∑ L ∈ range (src.shape.getD a 0), x (I.insertIdx a L)) := by
  have hax := h.axis
  have hn : src.ndim = dst.ndim + 1 := by
    simp only [Tensor.ndim, h.shape, List.length_eraseIdx_of_lt h.axis]; omega
  have hc := (checkErase_check hs.1 hd.1 (a := a) h.axis hn).ok ⟨h.shape, h.basetile⟩
  simp only [sumSliceAsync]
  rw [throwIf_neg (by omega), M.bind_ok, throwIf_neg (by omega), M.bind_ok, throwIf_neg (by omega), M.bind_ok,
    throwIf_neg (by simp only [Tensor.ndim]; omega), M.bind_ok]
  simp only [Int.toNat_natCast, hc, M.bind_ok]
  have hg : src.grid.getD a 0 = (src.shape.getD a 0 - 1) / src.basetile.getD a 0 + 1 := getD_gridOf hs.1.2.2 hax
  have key := sliceReduceLoop_run (beta := beta) (submit := fun beta S hs _ hd => .ok (submitSumSlice (mOf S a) (nOf S a) (kOf S a) alpha hs beta hd redux))
    hs.1 hd h
    (fun be u => submitSumSlice (mOf (src.tshape u) a) (nOf (src.tshape u) a) (kOf (src.tshape u) a) alpha (src.id, lin src.grid u) be
      (dst.id, lin dst.grid (u.eraseIdx a)) redux)
    (fun j I => beta * y I + alpha * ∑ j' ∈ range j, ∑ i ∈ range (min (src.basetile.getD a 0) (src.shape.getD a 0 - j' * src.basetile.getD a 0)),
      x (I.insertIdx a (j' * src.basetile.getD a 0 + i)))
    (fun be u hu => ⟨rfl, rfl, by simp [submitSumSlice, task1, hid]⟩) ?_ ?_
  · have e : ∀ I : List Nat, _ := fun I => sum_tiles_fn (s := src.shape.getD a 0) (b := src.basetile.getD a 0)
      (hs.1.1.getD hax) (hs.1.2.1.getD (by rw [hs.1.2.2]; exact hax)) (fun i => x (I.insertIdx a i))
    rw [hg] at key
    simp only [e] at key
    exact key
  · intro t ht
    obtain ⟨X, hts, hz1, hz2, hk, hX, hv⟩ := slice_tile h hs ht (src.grid_pos.getD (h.axis_grid hs.1)) hx
    obtain ⟨b', e1, e2, e3⟩ := sumSlice_run (alpha := alpha) (beta := beta)
      (o := if beta = 0 then Buf.undef (s (dst.id, lin dst.grid t)).size else s (dst.id, lin dst.grid t))
      (y := fun j => y (globIdx dst.basetile t (unlin (dst.tshape t) j)))
      (by rw [← hz1]; split <;> exact hd.2.size ht) hz2 hX (by
        intro hb j hj
        rw [if_neg hb]
        exact (hy hb).data hd.1 ht (by rw [hz1]; exact hj))
    refine ⟨b', ?_, by rw [e2]; split <;> exact hd.2.size ht, ?_⟩
    · simp only [submitSumSlice, task1, reduceMode_inp]
      exact e1
    · intro l hl
      obtain ⟨i1, i2, g1, g2, q1, q2⟩ := hv l hl
      rw [q1, e3 i1 i2 g1 g2, ← q1, unlin_lin hl, sum_range_one]
      rw [sum_congr (by rw [hk]) (fun i hi => q2 i (by rw [hk]; exact mem_range.1 hi))]
  · intro t j ht hj0 hj c hc1 hc2
    obtain ⟨X, hts, hz1, hz2, hk, hX, hv⟩ := slice_tile h hs ht hj hx
    obtain ⟨Y, hY, hYl⟩ := tile_fn hd.1 ht hc2
    obtain ⟨b', e1, e2, e3⟩ := sumSlice_run (alpha := alpha) (beta := 1) (o := c) (y := Y) (by rw [← hz1, hc1]) hz2 hX
      (fun _ j hj => hY j (by rw [hz1]; exact hj))
    refine ⟨b', ?_, by rw [e2, hc1], ?_⟩
    · simp only [submitSumSlice, task1, reduceMode_inp, if_neg one_ne_zero]
      exact e1
    · intro l hl
      obtain ⟨i1, i2, g1, g2, q1, q2⟩ := hv l hl
      rw [q1, e3 i1 i2 g1 g2, ← q1, hYl l hl, sum_range_succ, one_mul, mul_add, ← add_assoc]
      rw [sum_congr (by rw [hk]) (fun i hi => q2 i (by rw [hk]; exact mem_range.1 hi))]

set_option maxHeartbeats 1000000 in
/-- `sumprod_slice`, provided that `src2` is cut into tiles like `src1` (the code does not check this, see below):
`dst[i,j] = beta*dst[i,j] + alpha * sum_l src1[i,l,j]*src2[i,l,j]`. -/
theorem C14_sumprod_slice_partial {src1 src2 dst : Tensor} {a : Nat} {s : Store ℝ} (hs : src1.Ready s) (hs2 : src2.Ready s) (hd : dst.Ready s)
    (hid : src1.id ≠ dst.id) (hid2 : src2.id ≠ dst.id) (h : dst.SliceOf src1 a) (hsh : src2.shape = src1.shape) (hbt : src2.basetile = src1.basetile)
    (alpha beta : ℝ) (redux : Bool) (x x' y : List Nat → ℝ) (hx : src1.Holds s x) (hx' : src2.Holds s x') (hy : beta ≠ 0 → dst.Holds s y) :
    Computes (sumprodSliceAsync alpha src1 src2 beta dst a redux) s dst
      (fun I => beta * y I + alpha * ∑ L ∈ range (src1.shape.getD a 0), x (I.insertIdx a L) * x' (I.insertIdx a L)) := by
  have hax := h.axis
  have hn : src1.ndim = dst.ndim + 1 := by
    simp only [Tensor.ndim, h.shape, List.length_eraseIdx_of_lt h.axis]; omega
  have hg2 : src2.grid = src1.grid := by rw [Tensor.grid, hsh, hbt]; rfl
  have ht2 : ∀ t, src2.tshape t = src1.tshape t := fun t => by rw [Tensor.tshape, hsh, hbt]; rfl
  have h2 : dst.SliceOf src2 a := ⟨by rw [hsh]; exact h.axis, by rw [hsh]; exact h.shape, by rw [hbt]; exact h.basetile⟩
  have hc := (checkErase_check hs.1 hd.1 (a := a) h.axis hn).ok ⟨h.shape, h.basetile⟩
  simp only [sumprodSliceAsync]
  rw [throwIf_neg (by simp [hsh]), M.bind_ok, throwIf_neg (by omega), M.bind_ok, throwIf_neg (by omega), M.bind_ok, throwIf_neg (by omega), M.bind_ok,
    throwIf_neg (by simp only [Tensor.ndim]; omega), M.bind_ok]
  simp only [Int.toNat_natCast, hc, M.bind_ok]
  have hg : src1.grid.getD a 0 = (src1.shape.getD a 0 - 1) / src1.basetile.getD a 0 + 1 := getD_gridOf hs.1.2.2 hax
  have key := sliceReduceLoop_run (beta := beta) (submit := fun beta S hs i hd => do
      let hs2 ← src2.handleL i
      .ok (submitSumprodSlice (mOf S a) (nOf S a) (kOf S a) alpha hs hs2 beta hd redux))
    hs.1 hd h
    (fun be u => submitSumprodSlice (mOf (src1.tshape u) a) (nOf (src1.tshape u) a) (kOf (src1.tshape u) a) alpha (src1.id, lin src1.grid u)
      (src2.id, lin src1.grid u) be (dst.id, lin dst.grid (u.eraseIdx a)) redux)
    (fun j I => beta * y I + alpha * ∑ j' ∈ range j, ∑ i ∈ range (min (src1.basetile.getD a 0) (src1.shape.getD a 0 - j' * src1.basetile.getD a 0)),
      x (I.insertIdx a (j' * src1.basetile.getD a 0 + i)) * x' (I.insertIdx a (j' * src1.basetile.getD a 0 + i)))
    (fun be u hu => ⟨by rw [Tensor.handleL_ok (by rw [Tensor.ntiles, hg2]; exact lin_lt hu)]; rfl, rfl, by simp [submitSumprodSlice, task2, hid, hid2]⟩) ?_ ?_
  · have e : ∀ I : List Nat, _ := fun I => sum_tiles_fn (s := src1.shape.getD a 0) (b := src1.basetile.getD a 0)
      (hs.1.1.getD hax) (hs.1.2.1.getD (by rw [hs.1.2.2]; exact hax)) (fun i => x (I.insertIdx a i) * x' (I.insertIdx a i))
    rw [hg] at key
    simp only [e] at key
    exact key
  · intro t ht
    obtain ⟨X, hts, hz1, hz2, hk, hX, hv⟩ := slice_tile h hs ht (src1.grid_pos.getD (h.axis_grid hs.1)) hx
    obtain ⟨X', -, -, hz2', -, hX', hv'⟩ := slice_tile h2 hs2 ht (src2.grid_pos.getD (h2.axis_grid hs2.1)) hx'
    simp only [hg2, ht2, hbt] at hz2' hX' hv'
    obtain ⟨b', e1, e2, e3⟩ := sumprodSlice_run (alpha := alpha) (beta := beta)
      (o := if beta = 0 then Buf.undef (s (dst.id, lin dst.grid t)).size else s (dst.id, lin dst.grid t))
      (y := fun j => y (globIdx dst.basetile t (unlin (dst.tshape t) j)))
      (by rw [← hz1]; split <;> exact hd.2.size ht) hz2 hX hz2' hX' (by
        intro hb j hj
        rw [if_neg hb]
        exact (hy hb).data hd.1 ht (by rw [hz1]; exact hj))
    refine ⟨b', ?_, by rw [e2]; split <;> exact hd.2.size ht, ?_⟩
    · simp only [submitSumprodSlice, task2, reduceMode_inp]
      exact e1
    · intro l hl
      obtain ⟨i1, i2, g1, g2, q1, q2⟩ := hv l hl
      obtain ⟨i1', i2', g1', g2', q1', q2'⟩ := hv' l hl
      obtain ⟨rfl, rfl⟩ := cell2_inj g1 g1' (q1.symm.trans q1')
      rw [q1, e3 i1 i2 g1 g2, ← q1, unlin_lin hl, sum_range_one]
      rw [sum_congr (by rw [hk]) (fun i hi => congrArg₂ (· * ·) (q2 i (by rw [hk]; exact mem_range.1 hi)) (q2' i (by rw [hk]; exact mem_range.1 hi)))]
  · intro t j ht hj0 hj c hc1 hc2
    obtain ⟨X, hts, hz1, hz2, hk, hX, hv⟩ := slice_tile h hs ht hj hx
    obtain ⟨X', -, -, hz2', -, hX', hv'⟩ := slice_tile h2 hs2 ht (by rw [hg2]; exact hj) hx'
    simp only [hg2, ht2, hbt] at hz2' hX' hv'
    obtain ⟨Y, hY, hYl⟩ := tile_fn hd.1 ht hc2
    obtain ⟨b', e1, e2, e3⟩ := sumprodSlice_run (alpha := alpha) (beta := 1) (o := c) (y := Y) (by rw [← hz1, hc1]) hz2 hX hz2' hX'
      (fun _ j hj => hY j (by rw [hz1]; exact hj))
    refine ⟨b', ?_, by rw [e2, hc1], ?_⟩
    · simp only [submitSumprodSlice, task2, reduceMode_inp, if_neg one_ne_zero]
      exact e1
    · intro l hl
      obtain ⟨i1, i2, g1, g2, q1, q2⟩ := hv l hl
      obtain ⟨i1', i2', g1', g2', q1', q2'⟩ := hv' l hl
      obtain ⟨rfl, rfl⟩ := cell2_inj g1 g1' (q1.symm.trans q1')
      rw [q1, e3 i1 i2 g1 g2, ← q1, hYl l hl, sum_range_succ, one_mul, mul_add, ← add_assoc]
      rw [sum_congr (by rw [hk]) (fun i hi => congrArg₂ (· * ·) (q2 i (by rw [hk]; exact mem_range.1 hi)) (q2' i (by rw [hk]; exact mem_range.1 hi)))]

/-! ### Rejected arguments -/
section anyScalar
variable {α : Type} [FP α]

theorem C14_sum_slice_rejects {src dst : Tensor} (hs : src.WF) (hd : dst.WF) (alpha beta : α) (axis : Int) (redux : Bool)
    (h : ¬ ∃ a : Nat, axis = a ∧ dst.SliceOf src a) : Throws (sumSliceAsync alpha src beta dst axis redux) := by
  simp only [sumSliceAsync]
  refine throws_step fun h1 => throws_step fun h2 => throws_step fun h3 => throws_step fun h4 => ?_
  refine (checkErase_check hs hd (a := axis.toNat) (by omega) (by omega)).throws ?_
  rintro ⟨h5, h6⟩
  exact h ⟨axis.toNat, by omega, by simp only [Tensor.ndim] at h4; omega, h5, h6⟩

/-- Everything but the tiling of `src2` is checked. -/
theorem C14_sumprod_slice_rejects_partial {src1 src2 dst : Tensor} (hs : src1.WF) (hd : dst.WF) (alpha beta : α) (axis : Int) (redux : Bool)
    (h : ¬ ∃ a : Nat, axis = a ∧ dst.SliceOf src1 a ∧ src2.shape = src1.shape) : Throws (sumprodSliceAsync alpha src1 src2 beta dst axis redux) := by
  simp only [sumprodSliceAsync]
  refine throws_step fun h0 => throws_step fun h1 => throws_step fun h2 => throws_step fun h3 => throws_step fun h4 => ?_
  refine (checkErase_check hs hd (a := axis.toNat) (by omega) (by omega)).throws ?_
  rintro ⟨h5, h6⟩
  simp only [ne_eq, not_not] at h0
  exact h ⟨axis.toNat, by omega, ⟨by simp only [Tensor.ndim] at h4; omega, h5, h6⟩, h0.symm⟩

/-- A `src2` of the same shape with another tiling is accepted although it has no matching tiles: here `src1` has two tiles, `src2` one, and
the handle of a non-existing tile of `src2` is read (undefined behaviour). -/
theorem C14_sumprod_slice_refuted : ∃ src1 src2 dst : Tensor, src1.WF ∧ src2.WF ∧ dst.WF ∧ dst.SliceOf src1 0 ∧ src2.shape = src1.shape ∧
    ∀ (alpha beta : α) (redux : Bool), IsUB (sumprodSliceAsync alpha src1 src2 beta dst 0 redux) := by
  refine ⟨⟨0, [2], [1]⟩, ⟨1, [2], [2]⟩, ⟨2, [], []⟩, by decide, by decide, by decide, ⟨by decide, by decide, by decide⟩, rfl, fun alpha beta redux => ?_⟩
  refine ⟨"vector access out of bounds", ?_⟩
  simp [sumprodSliceAsync, throwIf, Tensor.ndim, checkErase, forCheck, forN, sliceReduceLoop, forTasks, Tensor.ntiles, Tensor.grid, gridOf,
    Tensor.handleL, vget, Tensor.handleAt, Tensor.tshapeAt, Tensor.tindex, unlin, InBox, lin]

end anyScalar

/-- The hypotheses are met by a `5×7×4` tensor cut into `2×3×4` tiles, reduced along axis 1. -/
example : ∃ (src src2 dst : Tensor) (s : Store ℝ) (x y z : List Nat → ℝ), src.ntiles = 9 ∧ src.Ready s ∧ src2.Ready s ∧ dst.Ready s ∧
    src.id ≠ dst.id ∧ src2.id ≠ dst.id ∧ dst.SliceOf src 1 ∧ src2.shape = src.shape ∧ src2.basetile = src.basetile ∧
    src.Holds s x ∧ src2.Holds s y ∧ dst.Holds s z := by
  obtain ⟨s, h1, h2, h3⟩ := exists_store3 (A := ⟨0, [5,7,4], [2,3,4]⟩) (B := ⟨1, [5,7,4], [2,3,4]⟩) (C := ⟨2, [5,4], [2,4]⟩)
    (fun I => (lin [5,7,4] I : ℝ)) (fun I => (lin [5,7,4] I : ℝ)) (fun _ => (1 : ℝ)) (by decide) (by decide) (by decide) (by decide) (by decide) (by decide)
  exact ⟨_, _, _, s, _, _, _, by decide, h1.1, h2.1, h3.1, by decide, by decide, ⟨by decide, by decide, by decide⟩, rfl, rfl, h1.2, h2.2, h3.2⟩

end NNTile
