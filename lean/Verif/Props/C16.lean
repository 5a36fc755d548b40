import Verif.Lib.Nrm2
import Verif.Lib.Store
import Verif.Spec.Box
/-!
# C16 — norms: `norm_slice`, `nrm2` (exact arithmetic)
-/
namespace NNTile
open Finset

/-- `norm_slice`: `dst[i,j] = sqrt((beta*dst[i,j])^2 + alpha^2 * sum_l src[i,l,j]^2)`. If `beta = 0` nothing is assumed about the old `dst`. -/
theorem C16_norm_slice {src dst : Tensor} {a : Nat} {s : Store ℝ} (hs : src.Ready s) (hd : dst.Ready s) (hid : src.id ≠ dst.id)
    (h : dst.SliceOf src a) (alpha beta : ℝ) (redux : Bool) (x y : List Nat → ℝ) (hx : src.Holds s x) (hy : beta ≠ 0 → dst.Holds s y) :
    Computes (normSliceAsync alpha src beta dst a redux) s dst
      (fun I => Real.sqrt ((beta * y I) ^ 2 + alpha ^ 2 * ∑ L ∈ range (src.shape.getD a 0), x (I.insertIdx a L) ^ 2)) := by
  have hax := h.axis
  have hn : src.ndim = dst.ndim + 1 := by
    simp only [Tensor.ndim, h.shape, List.length_eraseIdx_of_lt h.axis]; omega
  have hc := (checkErase_check hs.1 hd.1 (a := a) h.axis hn).ok ⟨h.shape, h.basetile⟩
  simp only [normSliceAsync]
  rw [throwIf_neg (by omega), M.bind_ok, throwIf_neg (by omega), M.bind_ok, throwIf_neg (by omega), M.bind_ok,
    throwIf_neg (by simp only [Tensor.ndim]; omega), M.bind_ok]
  simp only [Int.toNat_natCast, hc, M.bind_ok]
  have hg : src.grid.getD a 0 = (src.shape.getD a 0 - 1) / src.basetile.getD a 0 + 1 := getD_gridOf hs.1.2.2 hax
  have key := sliceReduceLoop_run (beta := beta) (submit := fun beta S hs _ hd => .ok (submitNormSlice (mOf S a) (nOf S a) (kOf S a) alpha hs beta hd redux))
    hs.1 hd h
    (fun be u => submitNormSlice (mOf (src.tshape u) a) (nOf (src.tshape u) a) (kOf (src.tshape u) a) alpha (src.id, lin src.grid u) be
      (dst.id, lin dst.grid (u.eraseIdx a)) redux)
    (fun j I => Real.sqrt ((beta * y I) ^ 2 + alpha ^ 2 * ∑ j' ∈ range j,
      ∑ i ∈ range (min (src.basetile.getD a 0) (src.shape.getD a 0 - j' * src.basetile.getD a 0)),
      x (I.insertIdx a (j' * src.basetile.getD a 0 + i)) ^ 2))
    (fun be u hu => ⟨rfl, rfl, by simp [submitNormSlice, task1, hid]⟩) ?_ ?_
  · have e : ∀ I : List Nat, _ := fun I => sum_tiles_fn (s := src.shape.getD a 0) (b := src.basetile.getD a 0)
      (hs.1.1.getD hax) (hs.1.2.1.getD (by rw [hs.1.2.2]; exact hax)) (fun i => x (I.insertIdx a i) ^ 2)
    rw [hg] at key
    simp only [e] at key
    exact key
  · intro t ht
    obtain ⟨X, hts, hz1, hz2, hk, hX, hv⟩ := slice_tile h hs ht (src.grid_pos.getD (h.axis_grid hs.1)) hx
    obtain ⟨b', e1, e2, e3⟩ := normSlice_run (alpha := alpha) (beta := beta)
      (o := if beta = 0 then Buf.undef (s (dst.id, lin dst.grid t)).size else s (dst.id, lin dst.grid t))
      (y := fun j => y (globIdx dst.basetile t (unlin (dst.tshape t) j)))
      (by rw [← hz1]; split <;> exact hd.2.size ht) hz2 hX (by
        intro hb j hj
        rw [if_neg hb]
        exact (hy hb).data hd.1 ht (by rw [hz1]; exact hj))
    refine ⟨b', ?_, by rw [e2]; split <;> exact hd.2.size ht, ?_⟩
    · simp only [submitNormSlice, task1, reduceMode_inp]
      exact e1
    · intro l hl
      obtain ⟨i1, i2, g1, g2, q1, q2⟩ := hv l hl
      rw [q1, e3 i1 i2 g1 g2, ← q1, unlin_lin hl, sum_range_one]
      rw [sum_congr (by rw [hk]) (fun i hi => congrArg (· ^ 2) (q2 i (by rw [hk]; exact mem_range.1 hi)))]
  · intro t j ht hj0 hj c hc1 hc2
    obtain ⟨X, hts, hz1, hz2, hk, hX, hv⟩ := slice_tile h hs ht hj hx
    obtain ⟨Y, hY, hYl⟩ := tile_fn hd.1 ht hc2
    obtain ⟨b', e1, e2, e3⟩ := normSlice_run (alpha := alpha) (beta := 1) (o := c) (y := Y) (by rw [← hz1, hc1]) hz2 hX
      (fun _ j hj => hY j (by rw [hz1]; exact hj))
    refine ⟨b', ?_, by rw [e2, hc1], ?_⟩
    · simp only [submitNormSlice, task1, reduceMode_inp, if_neg one_ne_zero]
      exact e1
    · intro l hl
      obtain ⟨i1, i2, g1, g2, q1, q2⟩ := hv l hl
      rw [q1, e3 i1 i2 g1 g2, ← q1, hYl l hl, one_mul, Real.sq_sqrt (add_nonneg (sq_nonneg _) (mul_nonneg (sq_nonneg _) (sum_nonneg fun _ _ => sum_nonneg fun _ _ => sq_nonneg _))), sum_range_succ, mul_add, ← add_assoc]
      rw [sum_congr (by rw [hk]) (fun i hi => congrArg (· ^ 2) (q2 i (by rw [hk]; exact mem_range.1 hi)))]

/-- `nrm2`: the scalar `dst` becomes `sqrt((beta*dst)^2 + alpha^2 * sum of the squares of all elements of src)`, whatever the tiling; `tmp` is
overwritten by the norms of the tiles; nothing else changes. -/
theorem C16_nrm2 {src dst tmp : Tensor} {s : Store ℝ} (hs : src.Ready s) (hd : dst.Ready s) (ht : tmp.Ready s) (hid : src.id ≠ dst.id)
    (hid2 : src.id ≠ tmp.id) (hid3 : dst.id ≠ tmp.id) (h0 : dst.shape = []) (h1 : tmp.shape = src.grid)
    (h2 : ∀ i, i < src.ndim → tmp.basetile.getD i 0 = 1) (alpha beta : ℝ) (x : List Nat → ℝ) (y : ℝ) (hx : src.Holds s x)
    (hy : beta ≠ 0 → dst.Holds s (fun _ => y)) :
    ∃ tasks s', nrm2Async alpha src beta dst tmp = .ok tasks ∧ runAll1 tasks s = .ok s' ∧
      dst.Holds s' (fun _ => Real.sqrt ((beta * y) ^ 2 + alpha ^ 2 * ∑ I ∈ box src.shape, x I ^ 2)) ∧
      OnlyChanged [dst.id, tmp.id] s s' ∧ dst.Ready s' ∧ tmp.Ready s' := by
  have hb0 : dst.basetile = [] := by have := hd.1.2.2; rw [h0] at this; exact List.length_eq_zero_iff.1 this
  have hdn : dst.ntiles = 1 := by simp [Tensor.ntiles, Tensor.grid, h0, hb0, gridOf]
  have hlt : tmp.basetile.length = src.grid.length := by rw [ht.1.2.2, h1]
  have hones := gridOf_ones src.grid tmp.basetile src.grid_pos hlt (fun i hi => h2 i (by rw [hs.1.grid_length] at hi; exact hi))
  have htg : tmp.grid = src.grid := by rw [Tensor.grid, h1]; exact hones.1
  have htn : tmp.ntiles = src.ntiles := by rw [Tensor.ntiles, htg]; rfl
  have hts : ∀ i, i < src.ntiles → (tmp.tshapeL i).prod = 1 := by
    intro i hi
    have := tmp.tindex_inBox i
    rw [htg] at this
    rw [Tensor.tshapeL, Tensor.tshape, h1]
    exact hones.2 _ this.length this
  have hds : (s (dst.id, 0)).size = 1 := by rw [hd.2 0 (by omega)]; simp [Tensor.tshapeL, Tensor.tshape, h0, tileShape]
  have hok : nrm2Async alpha src beta dst tmp = .ok ((List.range src.ntiles).flatMap (fun i =>
      [submitNrm2 (src.tnelems i) (src.id, i) (tmp.id, i), submitHypot 1 alpha (tmp.id, i) (if i = 0 then beta else 1) (dst.id, 0)])) := by
    unfold nrm2Async
    rw [throwIf_neg (by simp [Tensor.ndim, h0]), M.bind_ok, throwIf_neg (by simp [Tensor.ndim, h1, hs.1.grid_length]), M.bind_ok,
      throwIf_neg (by simp [h1]), M.bind_ok, throwIf_neg (by simpa using h2), M.bind_ok, Tensor.handleL_ok (by omega), M.bind_ok]
    apply forTasks_ok
    intro i hi
    rw [Tensor.handleL_ok hi, M.bind_ok, Tensor.handleL_ok (by omega), M.bind_ok]
  let q : Nat → ℝ := fun i => ∑ j ∈ range (src.tnelems i), x (globIdx src.basetile (src.tindex i) (unlin (src.tshapeL i) j)) ^ 2
  have hq : ∑ I ∈ box src.shape, x I ^ 2 = ∑ i ∈ range src.ntiles, q i := by
    rw [sum_box_tiles hs.1.1 hs.1.2.1 hs.1.2.2, ← Tensor.grid, sum_box src.grid_pos]
    refine sum_congr rfl (fun i _ => ?_)
    exact sum_box (hs.1.tshape_pos (src.tindex_inBox i)) _
  have hget : ∀ (s' : Store ℝ) (I : List Nat), InBox dst.shape I → dst.get s' I = (s' (dst.id, 0)).data 0 := by
    intro s' I hI
    rw [h0] at hI
    cases I with
    | nil => simp [Tensor.get, Tensor.hOf, Tensor.oOf, hb0, tileIdx, locIdx, lin]
    | cons => exact absurd hI (by simp [InBox])
  obtain ⟨s', e, i1, i2, i3, i4, i5⟩ := runAll1_inv (N := src.ntiles) (s := s) (g := fun i =>
      [submitNrm2 (src.tnelems i) (src.id, i) (tmp.id, i), submitHypot 1 alpha (tmp.id, i) (if i = 0 then beta else 1) (dst.id, 0)])
    (fun i s' => OnlyChanged [dst.id, tmp.id] s s' ∧ (s' (dst.id, 0)).size = 1 ∧ (∀ j, j < src.ntiles → (s' (tmp.id, j)).size = 1) ∧
      (i = 0 → s' (dst.id, 0) = s (dst.id, 0)) ∧ (0 < i → (s' (dst.id, 0)).data 0 =
        some (Real.sqrt ((beta * y) ^ 2 + alpha ^ 2 * ∑ j ∈ range i, q j))))
    ⟨fun _ _ => rfl, hds, fun j hj => by rw [ht.2 j (by omega), hts j hj], fun _ => rfl, fun h => by omega⟩ (by
      rintro i hi s' ⟨c1, c2, c3, c4, c5⟩
      have hsrc : s' (src.id, i) = s (src.id, i) := c1 _ (by simp [hid, hid2])
      have hX : ∀ j, j < src.tnelems i → (s (src.id, i)).data j = some (x (globIdx src.basetile (src.tindex i) (unlin (src.tshapeL i) j))) := by
        intro j hj
        have := hx.data hs.1 (src.tindex_inBox i) hj
        rwa [Tensor.lin_tindex hi] at this
      have hsz : (s (src.id, i)).size = src.tnelems i := hs.2 i hi
      have r1 := nrm2_run (n := src.tnelems i) (src := s (src.id, i)) (o := Buf.undef (s' (tmp.id, i)).size) (by simp [Buf.undef, c3 i hi]) hsz
        (x := fun j => x (globIdx src.basetile (src.tindex i) (unlin (src.tshapeL i) j))) hX
      rw [runAll1_cons_ok (t := submitNrm2 (src.tnelems i) (src.id, i) (tmp.id, i)) (by simp [submitNrm2, task1, Ne.symm hid2])
        (by simp only [submitNrm2, task1, Task1.inp, List.map, hsrc, if_true]; exact r1)]
      have hne : (dst.id, 0) ≠ (tmp.id, i) := by simp [hid3]
      obtain ⟨be, hbe⟩ : ∃ be : ℝ, be = if i = 0 then beta else 1 := ⟨_, rfl⟩
      rw [← hbe]
      have hosz : (if be = 0 then Buf.undef (s' (dst.id, 0)).size else s' (dst.id, 0)).size = 1 := by split <;> simp [Buf.undef, c2]
      have r2 := hypot1_run (alpha := alpha) (beta := be) (src := (Buf.undef (s' (tmp.id, i)).size : Buf ℝ).put 0 (Real.sqrt (q i)))
        (o := if be = 0 then Buf.undef (s' (dst.id, 0)).size else s' (dst.id, 0))
        (x := Real.sqrt (q i)) (y := if i = 0 then y else Real.sqrt ((beta * y) ^ 2 + alpha ^ 2 * ∑ j ∈ range i, q j))
        (by omega) (by simp [Buf.put, Buf.undef, c3 i hi]) (by simp [Buf.put]) (by
          intro hb
          rw [if_neg hb]
          by_cases hi0 : i = 0
          · simp only [hi0, if_true] at hbe ⊢
            rw [c4 hi0, ← hget s [] (by simp [h0, InBox])]
            exact hy (hbe ▸ hb) [] (by simp [h0, InBox])
          · simp only [hi0, if_false]
            exact c5 (by omega))
      rw [runAll1_cons_ok (t := submitHypot 1 alpha (tmp.id, i) be (dst.id, 0)) (b' := _) (by simp [submitHypot, task1, hid3]) (by
        refine Eq.trans ?_ r2
        show hypotKernel 1 alpha (if (tmp.id, i) = (tmp.id, i) then _ else _) be (Task1.inp _ (if (dst.id, 0) = (tmp.id, i) then _ else s' (dst.id, 0))) = _
        rw [if_pos rfl, if_neg hne]
        congr 1
        unfold Task1.inp submitHypot task1
        by_cases hb : be = 0
        · simp [hb]
        · simp only [eqb_real, hb, if_false]
          split_ifs <;> simp_all)]
      refine ⟨_, rfl, ?_, ?_, ?_, by omega, fun _ => ?_⟩
      · intro k hk
        simp only [List.mem_cons, List.not_mem_nil, or_false, not_or] at hk
        have n1 : k ≠ (dst.id, 0) := fun h => hk.1 (by rw [h])
        have n2 : k ≠ (tmp.id, i) := fun h => hk.2 (by rw [h])
        show (if k = (dst.id, 0) then _ else if k = (tmp.id, i) then _ else s' k) = s k
        rw [if_neg n1, if_neg n2]
        exact c1 k (by simp [hk.1, hk.2])
      · show (if (dst.id, 0) = (dst.id, 0) then _ else _ : Buf ℝ).size = 1
        exact (congrArg Buf.size (if_pos rfl)).trans hosz
      · intro j hj
        have n1 : (tmp.id, j) ≠ (dst.id, 0) := by simp [Ne.symm hid3]
        show (if (tmp.id, j) = (dst.id, 0) then _ else if (tmp.id, j) = (tmp.id, i) then _ else s' (tmp.id, j) : Buf ℝ).size = 1
        rw [if_neg n1]
        by_cases hji : j = i
        · rw [if_pos (by rw [hji])]
          exact c3 i hi
        · rw [if_neg (by simp [hji])]
          exact c3 j hj
      · show (if (dst.id, 0) = (dst.id, 0) then _ else _ : Buf ℝ).data 0 = _
        refine (congrArg (fun b : Buf ℝ => b.data 0) (if_pos rfl)).trans ?_
        simp only [Buf.put, if_true, hbe]
        have hqi : 0 ≤ q i := sum_nonneg (fun _ _ => sq_nonneg _)
        congr 2
        rw [Real.sq_sqrt hqi, sum_range_succ, mul_add, ← add_assoc]
        by_cases hi0 : i = 0
        · simp [hi0]
        · simp only [hi0, if_false, one_mul]
          rw [Real.sq_sqrt]
          have : 0 ≤ ∑ j ∈ range i, q j := sum_nonneg (fun _ _ => sum_nonneg (fun _ _ => sq_nonneg _))
          positivity)
  refine ⟨_, s', hok, e, ?_, i1, ⟨hd.1, ?_⟩, ht.1, ?_⟩
  · intro I hI
    rw [hget s' I hI, i5 src.ntiles_pos, hq]
  · intro i hi
    obtain rfl : i = 0 := by omega
    rw [i2]
    simp [Tensor.tshapeL, Tensor.tshape, h0, tileShape]
  · intro i hi
    rw [htn] at hi
    rw [i3 i hi, hts i hi]

/-- The computed norms are never negative. -/
theorem C16_norm_slice_nonneg {src dst : Tensor} {a : Nat} {s : Store ℝ} (hs : src.Ready s) (hd : dst.Ready s) (hid : src.id ≠ dst.id)
    (h : dst.SliceOf src a) (alpha beta : ℝ) (redux : Bool) (x y : List Nat → ℝ) (hx : src.Holds s x) (hy : beta ≠ 0 → dst.Holds s y) :
    ∃ v, Computes (normSliceAsync alpha src beta dst a redux) s dst v ∧ ∀ I, 0 ≤ v I :=
  ⟨_, C16_norm_slice hs hd hid h alpha beta redux x y hx hy, fun _ => Real.sqrt_nonneg _⟩

section anyScalar
variable {α : Type} [FP α]

theorem C16_norm_slice_rejects {src dst : Tensor} (hs : src.WF) (hd : dst.WF) (alpha beta : α) (axis : Int) (redux : Bool)
    (h : ¬ ∃ a : Nat, axis = a ∧ dst.SliceOf src a) : Throws (normSliceAsync alpha src beta dst axis redux) := by
  simp only [normSliceAsync]
  refine throws_step fun h1 => throws_step fun h2 => throws_step fun h3 => throws_step fun h4 => ?_
  refine (checkErase_check hs hd (a := axis.toNat) (by omega) (by omega)).throws ?_
  rintro ⟨h5, h6⟩
  exact h ⟨axis.toNat, by omega, by simp only [Tensor.ndim] at h4; omega, h5, h6⟩

theorem C16_nrm2_rejects {src dst tmp : Tensor} (alpha beta : α)
    (h : dst.shape ≠ [] ∨ tmp.shape ≠ src.grid ∨ ∃ i, i < src.ndim ∧ tmp.basetile.getD i 0 ≠ 1) : Throws (nrm2Async alpha src beta dst tmp) := by
  unfold nrm2Async
  refine throws_step fun h1 => throws_step fun h2 => throws_step fun h3 => throws_step fun h4 => ?_
  exfalso
  simp only [not_not] at h4 h3 h1
  rcases h with h | h | ⟨i, hi, h⟩
  · exact h (List.length_eq_zero_iff.1 h1)
  · exact h h3
  · exact h (h4 i hi)

end anyScalar

/-- Instances: a `5×7×4` tensor cut into `2×3×4` tiles; its norms along axis 1 and its norm. -/
example : ∃ (src dst : Tensor) (s : Store ℝ) (x y : List Nat → ℝ), src.ntiles = 9 ∧ src.Ready s ∧ dst.Ready s ∧ src.id ≠ dst.id ∧
    dst.SliceOf src 1 ∧ src.Holds s x ∧ dst.Holds s y := by
  obtain ⟨s, h1, h2⟩ := exists_store2 (A := ⟨0, [5,7,4], [2,3,4]⟩) (B := ⟨1, [5,4], [2,4]⟩)
    (fun I => (lin [5,7,4] I : ℝ)) (fun _ => (1 : ℝ)) (by decide) (by decide) (by decide)
  exact ⟨_, _, s, _, _, by decide, h1.1, h2.1, by decide, ⟨by decide, by decide, by decide⟩, h1.2, h2.2⟩

example : ∃ (src dst tmp : Tensor) (s : Store ℝ) (x : List Nat → ℝ) (y : ℝ), src.ntiles = 9 ∧ src.Ready s ∧ dst.Ready s ∧ tmp.Ready s ∧ src.id ≠ dst.id ∧
    src.id ≠ tmp.id ∧ dst.id ≠ tmp.id ∧ dst.shape = [] ∧ tmp.shape = src.grid ∧ (∀ i, i < src.ndim → tmp.basetile.getD i 0 = 1) ∧
    src.Holds s x ∧ dst.Holds s (fun _ => y) := by
  obtain ⟨s, h1, h2, h3⟩ := exists_store3 (A := ⟨0, [5,7,4], [2,3,4]⟩) (B := ⟨1, [], []⟩) (C := ⟨2, [3,3,1], [1,1,1]⟩)
    (fun I => (lin [5,7,4] I : ℝ)) (fun _ => (1 : ℝ)) (fun _ => (0 : ℝ)) (by decide) (by decide) (by decide) (by decide) (by decide) (by decide)
  exact ⟨_, _, _, s, _, _, by decide, h1.1, h2.1, h3.1, by decide, by decide, by decide, rfl, rfl, by decide, h1.2, h2.2⟩

end NNTile
