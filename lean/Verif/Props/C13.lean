import Verif.Lib.Fiber
import Verif.Lib.RealFP
import Verif.Lib.Store
/-!
# C13 — broadcast of a fiber: `add_fiber`, `prod_fiber`, `prod_fiber3`

`fiberIdx a b I` is the list of entry `a` of `I` and the last `b` entries of `I`. The theorems hold for all shapes, tilings, axes and
numbers of batch dimensions. The claim about `add_fiber` fails for `alpha = 0`, `beta ≠ 1` (`C13_add_fiber_refuted`).
-/
namespace NNTile

theorem fiberIdx_zero (a : Nat) (I : List Nat) : fiberIdx a 0 I = [I.getD a 0] := by simp [fiberIdx]

section anyScalar
variable {α : Type} [FP α]

/-- `add_fiber` with `alpha` not equal to zero: `dst[i,l,j,b] = beta*dst[i,l,j,b] + alpha*src[l,b]`. If `beta` is zero, `dst` may be
undefined before. -/
theorem C13_add_fiber_bits_partial {src dst : Tensor} {a b : Nat} {s : Store α} (hs : src.Ready s) (hd : dst.Ready s) (hid : src.id ≠ dst.id)
    (h : src.FiberOf dst a b) (alpha beta : α) (ha : FP.eqb alpha 0 = false) (x y : List Nat → α) (hx : src.Holds s x)
    (hy : FP.eqb beta 0 = false → dst.Holds s y) :
    Computes (addFiberAsync alpha src beta dst a b) s dst
      (fun I => if FP.eqb beta 0 then alpha * x (fiberIdx a b I) else beta * y I + alpha * x (fiberIdx a b I)) := by
  have hax := h.axis
  have hP := h.projOf hd.1
  have hbl : b ≤ dst.shape.length := by omega
  have hsn : src.ndim = b + 1 := by
    simp only [Tensor.ndim, h.shape, List.length_cons, List.length_drop]; omega
  have hc := (checkFiber_check hs.1 hd.1 (a := a) (b := b) h.axis hsn).ok h
  simp only [addFiberAsync]
  rw [throwIf_neg (by omega), M.bind_ok, throwIf_neg (by omega), M.bind_ok, throwIf_neg (by simp only [Tensor.ndim]; omega), M.bind_ok]
  simp only [Int.toNat_natCast, hc, M.bind_ok, ha, Bool.false_eq_true, if_false]
  refine computes_tile hd (fun t => submitAddFiber (mOf (dst.tshape t) a) (midOf (dst.tshape t) a b) (kOf (dst.tshape t) a) (btOf (dst.tshape t) b)
    alpha (src.id, lin src.grid (proj (fiberDims dst.shape.length a b) t)) beta (dst.id, lin dst.grid t)) ?_ _ ?_ ?_
  · intro t ht
    have htl : t.length = dst.shape.length := by rw [ht.length, hd.1.grid_length]
    have hSl := hd.1.tshape_length ht
    have hpt : t.getD a 0 :: (t.drop (dst.ndim - b)).take b = proj (fiberDims dst.shape.length a b) t := by
      rw [fiberIdx_eq htl hbl, fiberIdx, htl, Tensor.ndim, List.take_of_length_le (by simp; omega)]
    have hbt : (List.drop 1 (src.tshape (proj (fiberDims dst.shape.length a b) t))).prod = btOf (dst.tshape t) b := by
      rw [hP.tshape hd.1 ht, fiberIdx_eq hSl hbl]; rfl
    rw [Tensor.handleL_ok (lin_lt ht), M.bind_ok, Tensor.tindex_lin ht, vget_ok (by omega), M.bind_ok, vslice,
      if_pos (by simp only [Tensor.ndim]; omega), M.bind_ok, hpt, Tensor.handleAt_ok (hP.tile_inBox hd.1 ht), M.bind_ok,
      Tensor.tshapeAt_ok (hP.tile_inBox hd.1 ht), M.bind_ok, hbt, Tensor.tshapeL_lin ht,
      nOf_div (by omega) (hd.1.tshape_pos ht)]
  · intro t ht
    exact ⟨rfl, by simp [submitAddFiber, task1, hid]⟩
  · intro t ht
    have hSl := hd.1.tshape_length ht
    have hsz := hd.2.size ht
    rw [size4 (a := a) (b := b) (by omega)] at hsz
    have hss := hP.size hd.1 hs.2 ht
    have hte := hP.tile_inBox hd.1 ht
    have hss' := hs.2.size hte
    rw [fiberIdx_eq hSl hbl, sizeF] at hss
    obtain ⟨b', e1, e2, e3⟩ := addFiber_run (m := mOf (dst.tshape t) a) (n := midOf (dst.tshape t) a b) (k := kOf (dst.tshape t) a)
      (bt := btOf (dst.tshape t) b) (alpha := alpha) (beta := beta) (src := s (src.id, lin src.grid (proj (fiberDims dst.shape.length a b) t)))
      (o := if FP.eqb beta 0 then Buf.undef (s (dst.id, lin dst.grid t)).size else s (dst.id, lin dst.grid t))
      (x := fun j => x (globIdx src.basetile (proj (fiberDims dst.shape.length a b) t) (unlin (src.tshape (proj (fiberDims dst.shape.length a b) t)) j)))
      (y := fun j => y (globIdx dst.basetile t (unlin (dst.tshape t) j)))
      (by split <;> simpa using hsz) hss
      (fun j hj => hx.data hs.1 hte (by rw [← hss, hss'] at hj; exact hj))
      (by
        intro hb j hj
        rw [← hsz, hd.2.size ht] at hj
        simp only [hb]
        exact (hy hb).data hd.1 ht hj)
    refine ⟨b', ?_, by rw [e2]; split <;> simp, ?_⟩
    · cases hb : FP.eqb beta 0 <;> simpa [submitAddFiber, task1, Task1.inp, hb] using e1
    · intro l hl
      have hIl : (globIdx dst.basetile t l).length = dst.shape.length := ((hd.1.glob ht hl).1).length
      have hll : l.length = dst.shape.length := by rw [hl.length, hSl]
      obtain ⟨i0, i2, i1, c, g0, g2, g1, gc, q1, q2⟩ := view4 (a := a) (b := b) (by omega) hl
      have hlin : i2 + kOf (dst.tshape t) a * c = lin (src.tshape (proj (fiberDims dst.shape.length a b) t)) (proj (fiberDims dst.shape.length a b) l) := by
        rw [hP.tshape hd.1 ht, fiberIdx_eq hSl hbl, fiberIdx_eq hll hbl, q2]
      rw [q1, e3 i0 i2 i1 c g0 g2 g1 gc, ← q1, unlin_lin hl, hlin, unlin_lin (hP.loc_inBox hd.1 ht hl), hP.glob hd.1 ht hl, fiberIdx_eq hIl hbl]

/-- `prod_fiber`: `dst[i,l,j] = dst[i,l,j] * (alpha*src[l])`. -/
theorem C13_prod_fiber {src dst : Tensor} {a : Nat} {s : Store α} (hs : src.Ready s) (hd : dst.Ready s) (hid : src.id ≠ dst.id)
    (h : src.FiberOf dst a 0) (alpha : α) (x y : List Nat → α) (hx : src.Holds s x) (hy : dst.Holds s y) :
    Computes (prodFiberAsync src alpha dst a) s dst (fun I => y I * (alpha * x [I.getD a 0])) := by
  have hax := h.axis
  have hP := h.projOf hd.1
  have hbl : 0 ≤ dst.shape.length := by omega
  have hsn : src.ndim = 1 := by simp [Tensor.ndim, h.shape]
  have hc := (checkPair_check hs.1 hd.1 (i := 0) (j := a) (by omega) hax).ok (by simp [h.shape, h.basetile])
  simp only [prodFiberAsync]
  rw [throwIf_neg (by omega), M.bind_ok, throwIf_neg (by omega), M.bind_ok, throwIf_neg (by simp only [Tensor.ndim]; omega), M.bind_ok]
  simp only [Int.toNat_natCast, hc, M.bind_ok]
  refine computes_tile hd (fun t => submitProdFiber (mOf (dst.tshape t) a) (nOf (dst.tshape t) a) (kOf (dst.tshape t) a)
    alpha (src.id, lin src.grid (proj (fiberDims dst.shape.length a 0) t)) (dst.id, lin dst.grid t)) ?_ _ ?_ ?_
  · intro t ht
    have htl : t.length = dst.shape.length := by rw [ht.length, hd.1.grid_length]
    have hte := hP.tile_inBox hd.1 ht
    have hj : lin src.grid (proj (fiberDims dst.shape.length a 0) t) = t.getD a 0 := by
      rw [fiberIdx_eq htl hbl, fiberIdx_zero, hP.grid hd.1, fiberIdx_eq hd.1.grid_length hbl, fiberIdx_zero]; simp [lin]
    have hlt := lin_lt hte
    rw [hj] at hlt
    rw [Tensor.handleL_ok (lin_lt ht), M.bind_ok, Tensor.tindex_lin ht, vget_ok (by omega), M.bind_ok, Tensor.handleL_ok hlt, M.bind_ok,
      Tensor.tshapeL_lin ht, hj]
  · intro t ht
    exact ⟨rfl, by simp [submitProdFiber, task1, hid]⟩
  · intro t ht
    have hSl := hd.1.tshape_length ht
    have hsz := hd.2.size ht
    rw [prod_axis (a := a) (by omega)] at hsz
    have hss := hP.size hd.1 hs.2 ht
    have hte := hP.tile_inBox hd.1 ht
    have hss' := hs.2.size hte
    rw [fiberIdx_eq hSl hbl, fiberIdx_zero, List.prod_singleton] at hss
    obtain ⟨b', e1, e2, e3⟩ := prodFiber_run (m := mOf (dst.tshape t) a) (n := nOf (dst.tshape t) a) (k := kOf (dst.tshape t) a)
      (alpha := alpha) (src := s (src.id, lin src.grid (proj (fiberDims dst.shape.length a 0) t)))
      (o := s (dst.id, lin dst.grid t))
      (x := fun j => x (globIdx src.basetile (proj (fiberDims dst.shape.length a 0) t) (unlin (src.tshape (proj (fiberDims dst.shape.length a 0) t)) j)))
      (y := fun j => y (globIdx dst.basetile t (unlin (dst.tshape t) j)))
      hsz hss
      (fun j hj => hx.data hs.1 hte (by rw [kOf, ← hss, hss'] at hj; exact hj))
      (by
        intro j hj
        have hj' : j < (dst.tshape t).prod := by rw [prod_axis (a := a) (by omega)]; exact hj
        exact hy.data hd.1 ht hj')
    refine ⟨b', ?_, by rw [e2], ?_⟩
    · simpa [submitProdFiber, task1, Task1.inp] using e1
    · intro l hl
      have hIl : (globIdx dst.basetile t l).length = dst.shape.length := ((hd.1.glob ht hl).1).length
      have hll : l.length = dst.shape.length := by rw [hl.length, hSl]
      have hlin : l.getD a 0 = lin (src.tshape (proj (fiberDims dst.shape.length a 0) t)) (proj (fiberDims dst.shape.length a 0) l) := by
        rw [hP.tshape hd.1 ht, fiberIdx_eq hSl hbl, fiberIdx_eq hll hbl, fiberIdx_zero, fiberIdx_zero]; simp [lin]
      have q1 := lin_axis (a := a) (show a < (dst.tshape t).length by omega) hl.length
      have e4 := e3 _ _ _ (lin_lt (hl.take a)) (hl.getD (by omega)) (lin_lt (hl.drop (a+1)))
      rw [q1]
      refine e4.trans ?_
      rw [show lin ((dst.tshape t).take a) (l.take a) + mOf (dst.tshape t) a * (l.getD a 0 + kOf (dst.tshape t) a * lin ((dst.tshape t).drop (a+1)) (l.drop (a+1)))
        = lin (dst.tshape t) l from q1.symm, unlin_lin hl, hlin, unlin_lin (hP.loc_inBox hd.1 ht hl), hP.glob hd.1 ht hl, fiberIdx_eq hIl hbl, fiberIdx_zero]

/-- `prod_fiber3`: `dst[i,l,j] = alpha*src1[l] * src2[i,l,j]`, whatever was in `dst` before. -/
theorem C13_prod_fiber3 {src1 src2 dst : Tensor} {a : Nat} {s : Store α} (hs : src1.Ready s) (hs2 : src2.Ready s) (hd : dst.Ready s)
    (hid : src1.id ≠ dst.id) (h2 : src2.Like dst) (h : src1.FiberOf dst a 0) (alpha : α) (x y : List Nat → α) (hx : src1.Holds s x)
    (hy : src2.Holds s y) :
    Computes (prodFiber3Async src1 alpha src2 dst a) s dst (fun I => alpha * x [I.getD a 0] * y I) := by
  obtain ⟨hid2, hsh2, hbt2⟩ := h2
  have hax := h.axis
  have hP := h.projOf hd.1
  have hbl : 0 ≤ dst.shape.length := by omega
  have hsn : src1.ndim = 1 := by simp [Tensor.ndim, h.shape]
  have hc := (checkPair_check hs.1 hd.1 (i := 0) (j := a) (by omega) hax).ok (by simp [h.shape, h.basetile])
  simp only [prodFiber3Async]
  rw [throwIf_neg (by omega), M.bind_ok, throwIf_neg (by simp [Tensor.ndim, hsh2]), M.bind_ok, throwIf_neg (by omega), M.bind_ok,
    throwIf_neg (by simp only [Tensor.ndim]; omega), M.bind_ok]
  simp only [Int.toNat_natCast, hc, M.bind_ok]
  rw [throwIf_neg (by simp [hsh2]), M.bind_ok, throwIf_neg (by simp [hbt2]), M.bind_ok]
  have hg2 : src2.grid = dst.grid := by rw [Tensor.grid, hsh2, hbt2]; rfl
  refine computes_tile hd (fun t => submitProdFiber3 (mOf (dst.tshape t) a) (nOf (dst.tshape t) a) (kOf (dst.tshape t) a)
    alpha (src1.id, lin src1.grid (proj (fiberDims dst.shape.length a 0) t)) (src2.id, lin dst.grid t) (dst.id, lin dst.grid t)) ?_ _ ?_ ?_
  · intro t ht
    have htl : t.length = dst.shape.length := by rw [ht.length, hd.1.grid_length]
    have hte := hP.tile_inBox hd.1 ht
    have hj : lin src1.grid (proj (fiberDims dst.shape.length a 0) t) = t.getD a 0 := by
      rw [fiberIdx_eq htl hbl, fiberIdx_zero, hP.grid hd.1, fiberIdx_eq hd.1.grid_length hbl, fiberIdx_zero]; simp [lin]
    have hlt := lin_lt hte
    rw [hj] at hlt
    rw [Tensor.handleL_ok (lin_lt ht), M.bind_ok, Tensor.tindex_lin ht, vget_ok (by omega), M.bind_ok, Tensor.handleL_ok hlt, M.bind_ok,
      Tensor.handleL_ok (by rw [Tensor.ntiles, hg2]; exact lin_lt ht), M.bind_ok, Tensor.tshapeL_lin ht, hj]
  · intro t ht
    exact ⟨rfl, by simp [submitProdFiber3, task2, hid, hid2]⟩
  · intro t ht
    have hSl := hd.1.tshape_length ht
    have hsz := hd.2.size ht
    have hsz2 := hs2.2.same hsh2 hbt2 ht
    rw [prod_axis (a := a) (by omega)] at hsz hsz2
    have hss := hP.size hd.1 hs.2 ht
    have hte := hP.tile_inBox hd.1 ht
    have hss' := hs.2.size hte
    rw [fiberIdx_eq hSl hbl, fiberIdx_zero, List.prod_singleton] at hss
    obtain ⟨b', e1, e2, e3⟩ := prodFiber3_run (m := mOf (dst.tshape t) a) (n := nOf (dst.tshape t) a) (k := kOf (dst.tshape t) a)
      (alpha := alpha) (src := s (src1.id, lin src1.grid (proj (fiberDims dst.shape.length a 0) t))) (src2 := s (src2.id, lin dst.grid t))
      (o := Buf.undef (s (dst.id, lin dst.grid t)).size)
      (x := fun j => x (globIdx src1.basetile (proj (fiberDims dst.shape.length a 0) t) (unlin (src1.tshape (proj (fiberDims dst.shape.length a 0) t)) j)))
      (y := fun j => y (globIdx dst.basetile t (unlin (dst.tshape t) j)))
      hsz hss
      (fun j hj => hx.data hs.1 hte (by rw [kOf, ← hss, hss'] at hj; exact hj)) hsz2
      (by
        intro j hj
        have hj' : j < (dst.tshape t).prod := by rw [prod_axis (a := a) (by omega)]; exact hj
        have := hy.same hsh2 hbt2 hd.1 ht (unlin_inBox (hd.1.tshape_pos ht) j)
        rwa [lin_unlin hj'] at this)
    refine ⟨b', ?_, by rw [e2]; rfl, ?_⟩
    · simpa [submitProdFiber3, task2, Task1.inp] using e1
    · intro l hl
      have hIl : (globIdx dst.basetile t l).length = dst.shape.length := ((hd.1.glob ht hl).1).length
      have hll : l.length = dst.shape.length := by rw [hl.length, hSl]
      have hlin : l.getD a 0 = lin (src1.tshape (proj (fiberDims dst.shape.length a 0) t)) (proj (fiberDims dst.shape.length a 0) l) := by
        rw [hP.tshape hd.1 ht, fiberIdx_eq hSl hbl, fiberIdx_eq hll hbl, fiberIdx_zero, fiberIdx_zero]; simp [lin]
      have q1 := lin_axis (a := a) (show a < (dst.tshape t).length by omega) hl.length
      have e4 := e3 _ _ _ (lin_lt (hl.take a)) (hl.getD (by omega)) (lin_lt (hl.drop (a+1)))
      rw [q1]
      refine e4.trans ?_
      rw [show lin ((dst.tshape t).take a) (l.take a) + mOf (dst.tshape t) a * (l.getD a 0 + kOf (dst.tshape t) a * lin ((dst.tshape t).drop (a+1)) (l.drop (a+1)))
        = lin (dst.tshape t) l from q1.symm, unlin_lin hl, hlin, unlin_lin (hP.loc_inBox hd.1 ht hl), hP.glob hd.1 ht hl, fiberIdx_eq hIl hbl, fiberIdx_zero]

/-! ### Rejected arguments -/

/-- `add_fiber` throws unless `src` is a fiber of `dst` for `axis` and `batch_ndim >= 0`. -/
theorem C13_add_fiber_rejects_partial {src dst : Tensor} (hs : src.WF) (hd : dst.WF) (alpha beta : α) (axis batch_ndim : Int) (hb : 0 ≤ batch_ndim)
    (h : ¬ ∃ a b : Nat, axis = a ∧ batch_ndim = b ∧ src.FiberOf dst a b) : Throws (addFiberAsync alpha src beta dst axis batch_ndim) := by
  simp only [addFiberAsync]
  refine throws_step fun h1 => throws_step fun h2 => throws_step fun h3 => ?_
  refine (checkFiber_check hs hd (a := axis.toNat) (b := batch_ndim.toNat) (by omega) (by omega)).throws ?_
  intro h4
  exact h ⟨axis.toNat, batch_ndim.toNat, by omega, by omega, h4⟩

/-- With `batch_ndim = -1` and a scalar `src` all range checks pass and `src.shape[0]` of an empty vector is read. -/
theorem C13_add_fiber_rejects_refuted : ∃ src dst : Tensor, src.WF ∧ dst.WF ∧
    ∀ alpha beta : α, ¬ Throws (addFiberAsync alpha src beta dst 0 (-1)) ∧ IsUB (addFiberAsync alpha src beta dst 0 (-1)) := by
  refine ⟨⟨0, [], []⟩, ⟨1, [3], [2]⟩, by decide, by decide, fun alpha beta => ?_⟩
  have e : addFiberAsync alpha ⟨0, [], []⟩ beta ⟨1, [3], [2]⟩ 0 (-1) = .error (.ub "vector access out of bounds") := by
    simp [addFiberAsync, throwIf, Tensor.ndim, checkFiber, checkPair, vget]
  rw [e]
  exact ⟨by rintro ⟨m, hm⟩; simp at hm, ⟨_, rfl⟩⟩

theorem C13_prod_fiber_rejects {src dst : Tensor} (hs : src.WF) (hd : dst.WF) (alpha : α) (axis : Int)
    (h : ¬ ∃ a : Nat, axis = a ∧ src.FiberOf dst a 0) : Throws (prodFiberAsync src alpha dst axis) := by
  simp only [prodFiberAsync]
  refine throws_step fun h1 => throws_step fun h2 => throws_step fun h3 => ?_
  simp only [ne_eq, not_not] at h1
  refine (checkPair_check hs hd (i := 0) (j := axis.toNat) (by omega) (by omega)).throws ?_
  intro h4
  refine h ⟨axis.toNat, by omega, ?_⟩
  have := (checkFiber_check hs hd (a := axis.toNat) (b := 0) (by omega) (by omega))
  by_contra h5
  obtain ⟨m, hm⟩ := this.bad h5
  simp only [checkFiber, (checkPair_check hs hd (i := 0) (j := axis.toNat) (by omega) (by omega)).ok h4, M.bind_ok] at hm
  simp [forCheck, forN] at hm

theorem C13_prod_fiber3_rejects {src1 src2 dst : Tensor} (hs : src1.WF) (hd : dst.WF) (alpha : α) (axis : Int)
    (h : ¬ ∃ a : Nat, axis = a ∧ src1.FiberOf dst a 0 ∧ src2.shape = dst.shape ∧ src2.basetile = dst.basetile) :
    Throws (prodFiber3Async src1 alpha src2 dst axis) := by
  simp only [prodFiber3Async]
  refine throws_step fun h1 => throws_step fun _ => throws_step fun h2 => throws_step fun h3 => ?_
  simp only [ne_eq, not_not] at h1
  refine (checkPair_check hs hd (i := 0) (j := axis.toNat) (by omega) (by omega)).throws_step ?_
  intro h4
  refine throws_step fun h6 => throws_pos fun h7 => ?_
  simp only [ne_eq, not_not] at h6
  refine h ⟨axis.toNat, by omega, ?_, h6, h7⟩
  have := (checkFiber_check hs hd (a := axis.toNat) (b := 0) (by omega) (by omega))
  by_contra h5
  obtain ⟨m, hm⟩ := this.bad h5
  simp only [checkFiber, (checkPair_check hs hd (i := 0) (j := axis.toNat) (by omega) (by omega)).ok h4, M.bind_ok] at hm
  simp [forCheck, forN] at hm

end anyScalar

/-! ### Exact arithmetic -/

/-- `add_fiber` over the reals, for all scalars except `alpha = 0` with `beta ≠ 1`. -/
theorem C13_add_fiber_partial {src dst : Tensor} {a b : Nat} {s : Store ℝ} (hs : src.Ready s) (hd : dst.Ready s) (hid : src.id ≠ dst.id)
    (h : src.FiberOf dst a b) (alpha beta : ℝ) (hab : alpha ≠ 0 ∨ beta = 1) (x y : List Nat → ℝ) (hx : src.Holds s x)
    (hy : beta ≠ 0 → dst.Holds s y) :
    Computes (addFiberAsync alpha src beta dst a b) s dst (fun I => beta * y I + alpha * x (fiberIdx a b I)) := by
  by_cases ha : alpha = 0
  · subst ha
    have hb : beta = 1 := by simpa using hab
    subst hb
    have hax := h.axis
    have hsn : src.ndim = b + 1 := by
      simp only [Tensor.ndim, h.shape, List.length_cons, List.length_drop]; omega
    have hc := (checkFiber_check hs.1 hd.1 (a := a) (b := b) h.axis hsn).ok h
    refine ⟨[], s, ?_, rfl, ?_, fun _ _ => rfl, hd⟩
    · simp only [addFiberAsync]
      rw [throwIf_neg (by omega), M.bind_ok, throwIf_neg (by omega), M.bind_ok, throwIf_neg (by simp only [Tensor.ndim]; omega), M.bind_ok]
      simp [Int.toNat_natCast, hc, M.bind_ok]
    · intro I hI
      simpa using hy (by norm_num) I hI
  · have := C13_add_fiber_bits_partial hs hd hid h alpha beta (by simpa using ha) x y hx (fun hb => hy (by simpa using hb))
    convert this using 2 with I
    by_cases hb : beta = 0 <;> simp [hb]

/-- The full claim fails: `add_fiber` with `alpha = 0`, `beta = 2` submits no task, so `dst` keeps the value 1 instead of getting 2. -/
theorem C13_add_fiber_refuted : ∃ (src dst : Tensor) (s : Store ℝ) (x y : List Nat → ℝ), src.Ready s ∧ dst.Ready s ∧ src.id ≠ dst.id ∧
    src.FiberOf dst 0 0 ∧ src.Holds s x ∧ dst.Holds s y ∧
    ¬ Computes (addFiberAsync 0 src 2 dst 0 0) s dst (fun I => 2 * y I + 0 * x (fiberIdx 0 0 I)) := by
  refine ⟨⟨0, [1], [1]⟩, ⟨1, [1], [1]⟩, fun _ => ⟨1, fun _ => some 1⟩, fun _ => 1, fun _ => 1, ?_, ?_, by decide, ⟨by decide, by decide, by decide⟩,
    fun _ _ => rfl, fun _ _ => rfl, ?_⟩
  · exact ⟨by decide, fun i _ => by simp [Tensor.tshapeL, Tensor.tshape, Tensor.tindex, Tensor.grid, gridOf, unlin, tileShape, Nat.mod_one]⟩
  · exact ⟨by decide, fun i _ => by simp [Tensor.tshapeL, Tensor.tshape, Tensor.tindex, Tensor.grid, gridOf, unlin, tileShape, Nat.mod_one]⟩
  · rintro ⟨tasks, s', e1, e2, e3, -⟩
    have e : addFiberAsync (0 : ℝ) ⟨0, [1], [1]⟩ 2 ⟨1, [1], [1]⟩ 0 0 = .ok [] := by
      simp [addFiberAsync, throwIf, Tensor.ndim, checkFiber, checkPair, vget, forCheck, forN]
    rw [e] at e1
    cases e1
    cases e2
    have := e3 [0] (by decide)
    simp [Tensor.get] at this

/-- The hypotheses are met by a `4×6×3` tensor cut into `2×4×2` tiles, axis 1, one batch dimension. -/
example : ∃ (src dst : Tensor) (s : Store ℝ) (x y : List Nat → ℝ), dst.ntiles = 8 ∧ src.Ready s ∧ dst.Ready s ∧
    src.id ≠ dst.id ∧ src.FiberOf dst 1 1 ∧ src.Holds s x ∧ dst.Holds s y := by
  obtain ⟨s, h1, h2⟩ := exists_store2 (A := ⟨0, [6,3], [4,2]⟩) (B := ⟨1, [4,6,3], [2,4,2]⟩)
    (fun I => (lin [6,3] I : ℝ)) (fun I => (lin [4,6,3] I : ℝ)) (by decide) (by decide) (by decide)
  exact ⟨_, _, s, _, _, by decide, h1.1, h2.1, by decide, ⟨by decide, by decide, by decide⟩, h1.2, h2.2⟩

/-- Likewise for the products, along axis 0. -/
example : ∃ (src src2 dst : Tensor) (s : Store ℝ) (x y z : List Nat → ℝ), dst.ntiles = 8 ∧ src.Ready s ∧ src2.Ready s ∧ dst.Ready s ∧
    src.id ≠ dst.id ∧ src2.Like dst ∧ src.FiberOf dst 0 0 ∧ src.Holds s x ∧ src2.Holds s y ∧ dst.Holds s z := by
  obtain ⟨s, h1, h2, h3⟩ := exists_store3 (A := ⟨0, [4], [2]⟩) (B := ⟨1, [4,6,3], [2,4,2]⟩) (C := ⟨2, [4,6,3], [2,4,2]⟩)
    (fun I => (lin [4] I : ℝ)) (fun I => (lin [4,6,3] I : ℝ)) (fun _ => (1 : ℝ)) (by decide) (by decide) (by decide) (by decide) (by decide) (by decide)
  exact ⟨_, _, _, s, _, _, _, by decide, h1.1, h2.1, h3.1, by decide, ⟨by decide, by decide, by decide⟩, ⟨by decide, by decide, by decide⟩, h1.2, h2.2, h3.2⟩

end NNTile
