import Verif.Lib.FiberReduce
import Verif.Lib.Store
/-!
# C15 — reductions to a fiber: `sum_fiber`, `sumprod_fiber` (exact arithmetic)

`fiberIdx a b J` is the list of entry `a` of `J` and the last `b` entries of `J`. The sum runs over all indices `J` of `src` with
`fiberIdx a b J = I`. The theorems hold for all shapes, tilings, axes, numbers of batch dimensions, scalars and both values of `redux`.
-/
namespace NNTile
open Finset

/-- `sum_fiber`: `dst[l,b] = beta*dst[l,b] + alpha * sum_{i,j} src[i,l,j,b]`. If `beta = 0` nothing is assumed about the old `dst`. -/
theorem C15_sum_fiber {src dst : Tensor} {a b : Nat} {s : Store ℝ} (hs : src.Ready s) (hd : dst.Ready s) (hid : src.id ≠ dst.id)
    (h : dst.FiberOf src a b) (alpha beta : ℝ) (redux : Bool) (x y : List Nat → ℝ) (hx : src.Holds s x) (hy : beta ≠ 0 → dst.Holds s y) :
    Computes (sumFiberAsync alpha src beta dst a b redux) s dst
      (fun I => beta * y I + alpha * ∑ J ∈ (box src.shape).filter (fun J => fiberIdx a b J = I), x J) := by
  have hax := h.axis
  have hP := h.projOf hs.1
  have hbl : b ≤ src.shape.length := by omega
  have hdn : dst.ndim = b + 1 := by
    simp only [Tensor.ndim, h.shape, List.length_cons, List.length_drop]; omega
  have hc := (checkFiber_check hd.1 hs.1 (a := a) (b := b) h.axis hdn).ok h
  simp only [sumFiberAsync]
  rw [throwIf_neg (by omega), M.bind_ok, throwIf_neg (by simp only [Tensor.ndim]; omega), M.bind_ok, throwIf_neg (by omega), M.bind_ok,
    throwIf_neg (by simp only [Tensor.ndim]; omega), M.bind_ok]
  simp only [Int.toNat_natCast, hc, M.bind_ok]
  refine fiberReduce_run hs.1 hd h (fun u => submitSumFiber (mOf (src.tshape u) a) (midOf (src.tshape u) a b) (kOf (src.tshape u) a) (btOf (src.tshape u) b)
    alpha (src.id, lin src.grid u) (if initFirst u (src.ndim - b) a then beta else 1) (dst.id, lin dst.grid (proj (fiberDims src.shape.length a b) u))
    (if initFirst u (src.ndim - b) a then false else redux)) ?_ ?_ alpha beta x y hy ?_
  · intro u hu
    have hul : u.length = src.shape.length := by rw [hu.length, hs.1.grid_length]
    have hSl := hs.1.tshape_length hu
    have hpt : u.getD a 0 :: (u.drop (src.ndim - b)).take b = proj (fiberDims src.shape.length a b) u := by
      rw [fiberIdx_eq hul hbl, fiberIdx, hul, Tensor.ndim, List.take_of_length_le (by simp; omega)]
    have hbt : (List.drop 1 (dst.tshape (proj (fiberDims src.shape.length a b) u))).prod = btOf (src.tshape u) b := by
      rw [hP.tshape hs.1 hu, fiberIdx_eq hSl hbl]; rfl
    rw [Tensor.handleL_ok (lin_lt hu), M.bind_ok, Tensor.tindex_lin hu, vget_ok (by omega), M.bind_ok, vslice,
      if_pos (by simp only [Tensor.ndim]; omega), M.bind_ok, hpt, Tensor.handleAt_ok (hP.tile_inBox hs.1 hu), M.bind_ok,
      Tensor.tshapeAt_ok (hP.tile_inBox hs.1 hu), M.bind_ok, hbt, Tensor.tshapeL_lin hu, nOf_div (by omega) (hs.1.tshape_pos hu)]
    split <;> rfl
  · intro u hu
    exact ⟨rfl, by simp [submitSumFiber, task1, hid]⟩
  · intro u hu c Y hcs hcY
    generalize (if initFirst u (src.ndim - b) a then beta else 1) = be at hcY ⊢
    have hSl := hs.1.tshape_length hu
    have hfl : dst.tshape (proj (fiberDims src.shape.length a b) u) = fiberIdx a b (src.tshape u) := by
      rw [hP.tshape hs.1 hu, fiberIdx_eq hSl hbl]
    rw [hfl] at hcs hcY ⊢
    have hSp := hs.1.tshape_pos hu
    have hfp : Pos (fiberIdx a b (src.tshape u)) := by
      rw [← hfl]; exact hd.1.tshape_pos (hP.tile_inBox hs.1 hu)
    obtain ⟨b', e1, e2, e3⟩ := sumFiber_run (m := mOf (src.tshape u) a) (n := midOf (src.tshape u) a b) (k := kOf (src.tshape u) a)
      (bt := btOf (src.tshape u) b) (alpha := alpha) (beta := be) (src := s (src.id, lin src.grid u))
      (o := if be = 0 then Buf.undef c.size else c)
      (x := fun j => x (globIdx src.basetile u (unlin (src.tshape u) j))) (y := fun j => Y (unlin (fiberIdx a b (src.tshape u)) j))
      (by rw [← sizeF]; split <;> simp [Buf.undef, hcs]) (by rw [hs.2.size hu, size4 (a := a) (b := b) (by omega)])
      (fun j hj => hx.data hs.1 hu (by rw [size4 (a := a) (b := b) (by omega)]; exact hj))
      (by
        intro hb j hj
        rw [if_neg hb]
        have := hcY hb _ (unlin_inBox hfp j)
        rwa [lin_unlin (by rw [sizeF]; exact hj)] at this)
    refine ⟨b', ?_, by rw [e2]; split <;> simp [Buf.undef], ?_⟩
    · simp only [submitSumFiber, task1, reduceMode_inp]
      exact e1
    · intro l hl
      have hlt := lin_lt hl
      rw [sizeF] at hlt
      have hk : 0 < kOf (src.tshape u) a := hSp.getD (by omega)
      have h2 : lin (fiberIdx a b (src.tshape u)) l % kOf (src.tshape u) a < kOf (src.tshape u) a := Nat.mod_lt _ hk
      have hcc : lin (fiberIdx a b (src.tshape u)) l / kOf (src.tshape u) a < btOf (src.tshape u) b := by
        rw [Nat.div_lt_iff_lt_mul hk, Nat.mul_comm]; exact hlt
      have hdm := (Nat.mod_add_div (lin (fiberIdx a b (src.tshape u)) l) (kOf (src.tshape u) a)).symm
      have := e3 _ _ h2 hcc
      rw [← hdm, unlin_lin hl] at this
      rw [this, ← sum_fiber_cells hSp (by omega) hl h2 hcc hdm (fun j => x (globIdx src.basetile u (unlin (src.tshape u) j)))]
      congr 3
      refine sum_congr rfl (fun l' hl' => ?_)
      rw [mem_filter, mem_box] at hl'
      rw [unlin_lin hl'.1]

/-- `sumprod_fiber`, provided that `src2` is cut into tiles like `src1` (the code does not check this, see below):
`dst[l] = beta*dst[l] + alpha * sum_{i,j} src1[i,l,j]*src2[i,l,j]`. -/
theorem C15_sumprod_fiber_partial {src1 src2 dst : Tensor} {a : Nat} {s : Store ℝ} (hs : src1.Ready s) (hs2 : src2.Ready s) (hd : dst.Ready s)
    (hid : src1.id ≠ dst.id) (hid2 : src2.id ≠ dst.id) (h : dst.FiberOf src1 a 0) (hsh : src2.shape = src1.shape) (hbt : src2.basetile = src1.basetile)
    (alpha beta : ℝ) (redux : Bool) (x x' y : List Nat → ℝ) (hx : src1.Holds s x) (hx' : src2.Holds s x') (hy : beta ≠ 0 → dst.Holds s y) :
    Computes (sumprodFiberAsync alpha src1 src2 beta dst a redux) s dst
      (fun I => beta * y I + alpha * ∑ J ∈ (box src1.shape).filter (fun J => [J.getD a 0] = I), x J * x' J) := by
  have hax := h.axis
  have hP := h.projOf hs.1
  have hbl : 0 ≤ src1.shape.length := by omega
  have hg2 : src2.grid = src1.grid := by rw [Tensor.grid, hsh, hbt]; rfl
  have hdn : dst.ndim = 1 := by simp [Tensor.ndim, h.shape]
  have hc := (checkPair_check hs.1 hd.1 (i := a) (j := 0) hax (by omega)).ok (by simp [h.shape, h.basetile])
  have hf0 : ∀ J : List Nat, fiberIdx a 0 J = [J.getD a 0] := fun J => by simp [fiberIdx]
  simp only [sumprodFiberAsync]
  rw [throwIf_neg (by simp [hsh]), M.bind_ok, throwIf_neg (by omega), M.bind_ok, throwIf_neg (by simp only [Tensor.ndim]; omega), M.bind_ok,
    throwIf_neg (by omega), M.bind_ok, throwIf_neg (by simp only [Tensor.ndim]; omega), M.bind_ok]
  simp only [Int.toNat_natCast, hc, M.bind_ok, ← hf0]
  refine fiberReduce_run hs.1 hd h (fun u => submitSumprodFiber (mOf (src1.tshape u) a) (nOf (src1.tshape u) a) (kOf (src1.tshape u) a)
    alpha (src1.id, lin src1.grid u) (src2.id, lin src1.grid u) (if initFirst u (src1.ndim - 0) a then beta else 1)
    (dst.id, lin dst.grid (proj (fiberDims src1.shape.length a 0) u)) (if initFirst u (src1.ndim - 0) a then false else redux)) ?_ ?_ alpha beta
    (fun J => x J * x' J) y hy ?_
  · intro u hu
    have hul : u.length = src1.shape.length := by rw [hu.length, hs.1.grid_length]
    have hpt : proj (fiberDims src1.shape.length a 0) u = [u.getD a 0] := by simp [proj, fiberDims]
    have hin := hP.tile_inBox hs.1 hu
    rw [hpt] at hin
    have hlin : lin dst.grid [u.getD a 0] = u.getD a 0 := by
      cases hg : dst.grid with
      | nil => rw [hg] at hin; simp [InBox] at hin
      | cons g G => simp [lin_cons]
    have hlt : u.getD a 0 < dst.ntiles := by have := lin_lt hin; rw [hlin] at this; exact this
    rw [Tensor.handleL_ok (lin_lt hu), M.bind_ok, Tensor.handleL_ok (by rw [Tensor.ntiles, hg2]; exact lin_lt hu), M.bind_ok, Tensor.tindex_lin hu,
      vget_ok (by omega), M.bind_ok, Tensor.handleL_ok hlt, M.bind_ok, Tensor.tshapeL_lin hu, hpt, hlin]
    simp only [Nat.sub_zero]
    split <;> rfl
  · intro u hu
    exact ⟨rfl, by simp [submitSumprodFiber, task2, hid, hid2]⟩
  · intro u hu c Y hcs hcY
    generalize (if initFirst u (src1.ndim - 0) a then beta else 1) = be at hcY ⊢
    have hSl := hs.1.tshape_length hu
    have hfl : dst.tshape (proj (fiberDims src1.shape.length a 0) u) = fiberIdx a 0 (src1.tshape u) := by
      rw [hP.tshape hs.1 hu, fiberIdx_eq hSl hbl]
    rw [hfl] at hcs hcY ⊢
    have hSp := hs.1.tshape_pos hu
    have hfp : Pos (fiberIdx a 0 (src1.tshape u)) := by
      rw [← hfl]; exact hd.1.tshape_pos (hP.tile_inBox hs.1 hu)
    have hb1 : btOf (src1.tshape u) 0 = 1 := by simp [btOf]
    have hmid : midOf (src1.tshape u) a 0 = nOf (src1.tshape u) a := by rw [nOf_mid (b := 0) (by omega), hb1, Nat.mul_one]
    have hsz : (src1.tshape u).prod = mOf (src1.tshape u) a * (kOf (src1.tshape u) a * nOf (src1.tshape u) a) := prod_axis (by omega)
    have hszF : (fiberIdx a 0 (src1.tshape u)).prod = kOf (src1.tshape u) a := by rw [sizeF, hb1, Nat.mul_one]
    obtain ⟨b', e1, e2, e3⟩ := sumprodFiber_run (m := mOf (src1.tshape u) a) (n := nOf (src1.tshape u) a) (k := kOf (src1.tshape u) a)
      (alpha := alpha) (beta := be) (src := s (src1.id, lin src1.grid u)) (src2 := s (src2.id, lin src1.grid u))
      (o := if be = 0 then Buf.undef c.size else c)
      (x := fun j => x (globIdx src1.basetile u (unlin (src1.tshape u) j))) (x' := fun j => x' (globIdx src1.basetile u (unlin (src1.tshape u) j)))
      (y := fun j => Y (unlin (fiberIdx a 0 (src1.tshape u)) j))
      (by rw [← hszF]; split <;> simp [Buf.undef, hcs]) (by rw [hs.2.size hu, hsz])
      (fun j hj => hx.data hs.1 hu (by rw [hsz]; exact hj)) (by rw [hs2.2.same hsh hbt hu, hsz])
      (fun j hj => by
        have := hx'.same hsh hbt hs.1 hu (unlin_inBox hSp j)
        rwa [lin_unlin (by rw [hsz]; exact hj)] at this)
      (by
        intro hb j hj
        rw [if_neg hb]
        have := hcY hb _ (unlin_inBox hfp j)
        rwa [lin_unlin (by rw [hszF]; exact hj)] at this)
    refine ⟨b', ?_, by rw [e2]; split <;> simp [Buf.undef], ?_⟩
    · simp only [submitSumprodFiber, task2, reduceMode_inp]
      exact e1
    · intro l hl
      have hlt := lin_lt hl
      rw [hszF] at hlt
      have hcells := sum_fiber_cells hSp (a := a) (b := 0) (by omega) hl hlt (c := 0) (by omega) (by simp)
        (fun j => x (globIdx src1.basetile u (unlin (src1.tshape u) j)) * x' (globIdx src1.basetile u (unlin (src1.tshape u) j)))
      simp only [cell4, Nat.mul_zero, Nat.add_zero, hmid] at hcells
      rw [e3 _ hlt, unlin_lin hl, ← hcells]
      congr 3
      refine sum_congr rfl (fun l' hl' => ?_)
      rw [mem_filter, mem_box] at hl'
      rw [unlin_lin hl'.1]

/-! ### Rejected arguments -/
section anyScalar
variable {α : Type} [FP α]

/-- Every mismatch of shapes, tilings, axis and batch dimensions is rejected, if `batch_ndim` is not negative (see the next theorem). -/
theorem C15_sum_fiber_rejects_partial {src dst : Tensor} (hs : src.WF) (hd : dst.WF) (alpha beta : α) (axis batch_ndim : Int) (redux : Bool)
    (hb : 0 ≤ batch_ndim) (h : ¬ ∃ a b : Nat, axis = a ∧ batch_ndim = b ∧ dst.FiberOf src a b) :
    Throws (sumFiberAsync alpha src beta dst axis batch_ndim redux) := by
  simp only [sumFiberAsync]
  refine throws_step fun h1 => throws_step fun h2 => throws_step fun h3 => throws_step fun h4 => ?_
  refine (checkFiber_check hd hs (a := axis.toNat) (b := batch_ndim.toNat) (by omega) (by omega)).throws ?_
  intro h5
  exact h ⟨axis.toNat, batch_ndim.toNat, by omega, by omega, h5⟩

/-- `sum_fiber` of a scalar `dst` with `batch_ndim = -1` passes the argument checks and reads `dst.shape[0]`, which does not exist. -/
theorem C15_sum_fiber_batch_refuted : ∃ (src dst : Tensor), src.WF ∧ dst.WF ∧ ∀ (alpha beta : α) (redux : Bool),
    IsUB (sumFiberAsync alpha src beta dst 0 (-1) redux) := by
  refine ⟨⟨0, [2], [1]⟩, ⟨1, [], []⟩, by decide, by decide, fun alpha beta redux => ⟨"vector access out of bounds", ?_⟩⟩
  simp [sumFiberAsync, throwIf, Tensor.ndim, checkFiber, checkPair, vget]

/-- Everything but the tiling of `src2` is checked. -/
theorem C15_sumprod_fiber_rejects_partial {src1 src2 dst : Tensor} (hs : src1.WF) (hd : dst.WF) (alpha beta : α) (axis : Int) (redux : Bool)
    (h : ¬ ∃ a : Nat, axis = a ∧ dst.FiberOf src1 a 0 ∧ src2.shape = src1.shape) :
    Throws (sumprodFiberAsync alpha src1 src2 beta dst axis redux) := by
  simp only [sumprodFiberAsync]
  refine throws_step fun h0 => throws_step fun h1 => throws_step fun h2 => throws_step fun h3 => throws_step fun h4 => ?_
  simp only [ne_eq, not_not] at h0 h1
  have hax : axis.toNat < src1.shape.length := by simp only [Tensor.ndim] at h4; omega
  refine (checkPair_check hs hd (i := axis.toNat) (j := 0) hax (by omega)).throws ?_
  rintro ⟨h5, h6⟩
  refine h ⟨axis.toNat, by omega, ⟨by omega, ?_, ?_⟩, h0.symm⟩
  · have : dst.shape.length = 1 := h1
    obtain ⟨v, hv⟩ := List.length_eq_one_iff.1 this
    rw [hv] at h5 ⊢
    simpa using h5.symm
  · have : dst.basetile.length = 1 := by rw [hd.2.2]; exact h1
    obtain ⟨v, hv⟩ := List.length_eq_one_iff.1 this
    rw [hv] at h6 ⊢
    simpa [hs.2.2] using h6.symm

/-- A `src2` of the same shape with another tiling is accepted: here `src1` has two tiles, `src2` one, and the handle of a non-existing tile
of `src2` is read (undefined behaviour). -/
theorem C15_sumprod_fiber_refuted : ∃ src1 src2 dst : Tensor, src1.WF ∧ src2.WF ∧ dst.WF ∧ dst.FiberOf src1 0 0 ∧ src2.shape = src1.shape ∧
    ∀ (alpha beta : α) (redux : Bool), IsUB (sumprodFiberAsync alpha src1 src2 beta dst 0 redux) := by
  refine ⟨⟨0, [2], [1]⟩, ⟨1, [2], [2]⟩, ⟨2, [2], [1]⟩, by decide, by decide, by decide, ⟨by decide, by decide, by decide⟩, rfl, fun alpha beta redux => ?_⟩
  refine ⟨"vector access out of bounds", ?_⟩
  simp [sumprodFiberAsync, throwIf, Tensor.ndim, checkPair, vget, forTasks, Tensor.ntiles, Tensor.grid, gridOf, Tensor.handleL, Tensor.tindex, unlin,
    initFirst]

end anyScalar

/-- The hypotheses are met by a `5×7×4×3` tensor cut into `2×3×4×2` tiles, reduced to axis 1 with one batch dimension. -/
example : ∃ (src dst : Tensor) (s : Store ℝ) (x z : List Nat → ℝ), src.ntiles = 18 ∧ src.Ready s ∧ dst.Ready s ∧
    src.id ≠ dst.id ∧ dst.FiberOf src 1 1 ∧ src.Holds s x ∧ dst.Holds s z := by
  obtain ⟨s, h1, h2⟩ := exists_store2 (A := ⟨0, [5,7,4,3], [2,3,4,2]⟩) (B := ⟨1, [7,3], [3,2]⟩)
    (fun I => (lin [5,7,4,3] I : ℝ)) (fun _ => (1 : ℝ)) (by decide) (by decide) (by decide)
  exact ⟨_, _, s, _, _, by decide, h1.1, h2.1, by decide, ⟨by decide, by decide, by decide⟩, h1.2, h2.2⟩

example : ∃ (src src2 dst : Tensor) (s : Store ℝ) (x y z : List Nat → ℝ), src.ntiles = 9 ∧ src.Ready s ∧ src2.Ready s ∧ dst.Ready s ∧
    src.id ≠ dst.id ∧ src2.id ≠ dst.id ∧ dst.FiberOf src 1 0 ∧ src2.shape = src.shape ∧ src2.basetile = src.basetile ∧
    src.Holds s x ∧ src2.Holds s y ∧ dst.Holds s z := by
  obtain ⟨s, h1, h2, h3⟩ := exists_store3 (A := ⟨0, [5,7,4], [2,3,4]⟩) (B := ⟨1, [5,7,4], [2,3,4]⟩) (C := ⟨2, [7], [3]⟩)
    (fun I => (lin [5,7,4] I : ℝ)) (fun I => (lin [5,7,4] I : ℝ)) (fun _ => (1 : ℝ)) (by decide) (by decide) (by decide) (by decide) (by decide) (by decide)
  exact ⟨_, _, _, s, _, _, _, by decide, h1.1, h2.1, h3.1, by decide, by decide, ⟨by decide, by decide, by decide⟩, rfl, rfl, h1.2, h2.2, h3.2⟩

end NNTile
