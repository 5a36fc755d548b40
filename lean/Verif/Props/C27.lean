import Verif.Lib.ReduxFiber
import Verif.Lib.ReduxMse
import Verif.Props.C14
import Verif.Props.C15
import Verif.Props.C16
import Verif.Props.C17
/-!
# C27 — accumulation in the reduction mode of the runtime (exact arithmetic)

`ComputesRedux R async s dst v` (`Verif/Spec/Redux.lean`): whatever the runtime does with the accumulating tasks of each tile — which replicas it makes,
in which order it applies the tasks, how it merges the replicas — `dst` holds `v` afterwards. In each theorem `v` is the value that sequential execution
gives (`C14`, `C15`, `C16`, `C17`).
-/
namespace NNTile
open Finset

/-- `sum_slice`. -/
theorem C27_sum_slice {src dst : Tensor} {a : Nat} {s : Store ℝ} (hs : src.Ready s) (hd : dst.Ready s) (hid : src.id ≠ dst.id)
    (h : dst.SliceOf src a) (alpha beta : ℝ) (redux : Bool) (x y : List Nat → ℝ) (hx : src.Holds s x) (hy : beta ≠ 0 → dst.Holds s y) :
    ComputesRedux reduxAdd (sumSliceAsync alpha src beta dst a redux) s dst
      (fun I => beta * y I + alpha * ∑ L ∈ range (src.shape.getD a 0), x (I.insertIdx a L)) := by
  have hC := C14_sum_slice hs hd hid h alpha beta redux x y hx hy
  obtain ⟨hn, hax, hc⟩ := slice_checks hs.1 hd.1 h
  have hg0 : 0 < src.grid.getD a 0 := (src.grid_pos).getD (h.axis_grid hs.1)
  simp only [sumSliceAsync] at hC ⊢
  rw [throwIf_neg (by omega), M.bind_ok, throwIf_neg (by omega), M.bind_ok, throwIf_neg (by omega), M.bind_ok,
    throwIf_neg (by omega), M.bind_ok] at hC ⊢
  simp only [Int.toNat_natCast, hc, M.bind_ok] at hC ⊢
  refine sliceLoop_redux hs.1 hd h hC (fun be u => submitSumSlice (mOf (src.tshape u) a) (nOf (src.tshape u) a) (kOf (src.tshape u) a) alpha
    (src.id, lin src.grid u) be (dst.id, lin dst.grid (u.eraseIdx a)) redux) ?_ ?_
  · intro be u hu
    exact ⟨rfl, rfl, by simp [submitSumSlice, task1, hid]⟩
  · intro t ht
    have key : ∀ j, j < src.grid.getD a 0 → ∃ W, ∀ be, Affine (dst.tshape t).prod s (submitSumSlice (mOf (src.tshape (t.insertIdx a j)) a)
        (nOf (src.tshape (t.insertIdx a j)) a) (kOf (src.tshape (t.insertIdx a j)) a) alpha
        (src.id, lin src.grid (t.insertIdx a j)) be (dst.id, lin dst.grid ((t.insertIdx a j).eraseIdx a)) redux) be W := by
      intro j hj
      obtain ⟨hu, e1, e2⟩ := slice_sizes hs.1 h ht hj
      have hf := hx.full hs hu
      rw [e2] at hf
      obtain ⟨W, hW⟩ := sumSlice_affine (alpha := alpha) hf
      rw [← e1] at hW
      exact ⟨W, fun be => hW be⟩
    refine reduces_sums (beta := beta) (r := redux) (r' := redux) rfl ?_ ?_ ?_ (hd.2.size ht) ?_
    · obtain ⟨W, hW⟩ := key 0 hg0
      exact ⟨W, hW beta⟩
    · intro u hu
      simp only [List.mem_map] at hu
      obtain ⟨j, -, rfl⟩ := hu
      rfl
    · intro u hu
      simp only [List.mem_map, List.mem_range] at hu
      obtain ⟨j, hj, rfl⟩ := hu
      obtain ⟨W, hW⟩ := key (j+1) (by omega)
      exact ⟨W, hW 1⟩
    · intro hb
      exact ((hy hb).full hd ht).2

/-- `sumprod_slice`; partial, because the operation does not check the tiling of `src2` (`C14_sumprod_slice_refuted`). -/
theorem C27_sumprod_slice_partial {src1 src2 dst : Tensor} {a : Nat} {s : Store ℝ} (hs : src1.Ready s) (hs2 : src2.Ready s) (hd : dst.Ready s)
    (hid : src1.id ≠ dst.id) (hid2 : src2.id ≠ dst.id) (h : dst.SliceOf src1 a) (hsh : src2.shape = src1.shape) (hbt : src2.basetile = src1.basetile)
    (alpha beta : ℝ) (redux : Bool) (x x' y : List Nat → ℝ) (hx : src1.Holds s x) (hx' : src2.Holds s x') (hy : beta ≠ 0 → dst.Holds s y) :
    ComputesRedux reduxAdd (sumprodSliceAsync alpha src1 src2 beta dst a redux) s dst
      (fun I => beta * y I + alpha * ∑ L ∈ range (src1.shape.getD a 0), x (I.insertIdx a L) * x' (I.insertIdx a L)) := by
  have hC := C14_sumprod_slice_partial hs hs2 hd hid hid2 h hsh hbt alpha beta redux x x' y hx hx' hy
  obtain ⟨hn, hax, hc⟩ := slice_checks hs.1 hd.1 h
  have hg0 : 0 < src1.grid.getD a 0 := (src1.grid_pos).getD (h.axis_grid hs.1)
  have hg2 : src2.grid = src1.grid := by rw [Tensor.grid, hsh, hbt]; rfl
  have ht2 : ∀ t, src2.tshape t = src1.tshape t := fun t => by rw [Tensor.tshape, hsh, hbt]; rfl
  simp only [sumprodSliceAsync] at hC ⊢
  rw [throwIf_neg (by simp [hsh]), M.bind_ok, throwIf_neg (by omega), M.bind_ok, throwIf_neg (by omega), M.bind_ok, throwIf_neg (by omega), M.bind_ok,
    throwIf_neg (by omega), M.bind_ok] at hC ⊢
  simp only [Int.toNat_natCast, hc, M.bind_ok] at hC ⊢
  refine sliceLoop_redux hs.1 hd h hC (fun be u => submitSumprodSlice (mOf (src1.tshape u) a) (nOf (src1.tshape u) a) (kOf (src1.tshape u) a) alpha
    (src1.id, lin src1.grid u) (src2.id, lin src1.grid u) be (dst.id, lin dst.grid (u.eraseIdx a)) redux) ?_ ?_
  · intro be u hu
    refine ⟨?_, rfl, by simp [submitSumprodSlice, task2, hid, hid2]⟩
    rw [Tensor.handleL_ok (by rw [Tensor.ntiles, hg2]; exact lin_lt hu), M.bind_ok]
  · intro t ht
    have key : ∀ j, j < src1.grid.getD a 0 → ∃ W, ∀ be, Affine (dst.tshape t).prod s (submitSumprodSlice (mOf (src1.tshape (t.insertIdx a j)) a)
        (nOf (src1.tshape (t.insertIdx a j)) a) (kOf (src1.tshape (t.insertIdx a j)) a) alpha
        (src1.id, lin src1.grid (t.insertIdx a j)) (src2.id, lin src1.grid (t.insertIdx a j)) be
        (dst.id, lin dst.grid ((t.insertIdx a j).eraseIdx a)) redux) be W := by
      intro j hj
      obtain ⟨hu, e1, e2⟩ := slice_sizes hs.1 h ht hj
      have hf := hx.full hs hu
      have hf2 := hx'.full hs2 (by rw [hg2]; exact hu)
      rw [ht2, hg2, e2] at hf2
      rw [e2] at hf
      obtain ⟨W, hW⟩ := sumprodSlice_affine (alpha := alpha) hf hf2
      rw [← e1] at hW
      exact ⟨W, fun be => hW be⟩
    refine reduces_sums (beta := beta) (r := redux) (r' := redux) rfl ?_ ?_ ?_ (hd.2.size ht) ?_
    · obtain ⟨W, hW⟩ := key 0 hg0
      exact ⟨W, hW beta⟩
    · intro u hu
      simp only [List.mem_map] at hu
      obtain ⟨j, -, rfl⟩ := hu
      rfl
    · intro u hu
      simp only [List.mem_map, List.mem_range] at hu
      obtain ⟨j, hj, rfl⟩ := hu
      obtain ⟨W, hW⟩ := key (j+1) (by omega)
      exact ⟨W, hW 1⟩
    · intro hb
      exact ((hy hb).full hd ht).2

/-- `sum_fiber`. -/
theorem C27_sum_fiber {src dst : Tensor} {a b : Nat} {s : Store ℝ} (hs : src.Ready s) (hd : dst.Ready s) (hid : src.id ≠ dst.id)
    (h : dst.FiberOf src a b) (alpha beta : ℝ) (redux : Bool) (x y : List Nat → ℝ) (hx : src.Holds s x) (hy : beta ≠ 0 → dst.Holds s y) :
    ComputesRedux reduxAdd (sumFiberAsync alpha src beta dst a b redux) s dst
      (fun I => beta * y I + alpha * ∑ J ∈ (box src.shape).filter (fun J => fiberIdx a b J = I), x J) := by
  have hCc := C15_sum_fiber hs hd hid h alpha beta redux x y hx hy
  have hax := h.axis
  have hP := h.projOf hs.1
  have hbl : b ≤ src.shape.length := by omega
  have hdn : dst.ndim = b + 1 := by
    simp only [Tensor.ndim, h.shape, List.length_cons, List.length_drop]; omega
  have hc := (checkFiber_check hd.1 hs.1 (a := a) (b := b) h.axis hdn).ok h
  simp only [sumFiberAsync] at hCc ⊢
  rw [throwIf_neg (by omega), M.bind_ok, throwIf_neg (by simp only [Tensor.ndim]; omega), M.bind_ok, throwIf_neg (by omega), M.bind_ok,
    throwIf_neg (by simp only [Tensor.ndim]; omega), M.bind_ok] at hCc ⊢
  simp only [Int.toNat_natCast, hc, M.bind_ok] at hCc ⊢
  refine fiberLoop_redux hs.1 hd h hCc (fun u => submitSumFiber (mOf (src.tshape u) a) (midOf (src.tshape u) a b) (kOf (src.tshape u) a)
    (btOf (src.tshape u) b) alpha (src.id, lin src.grid u) (if initFirst u (src.ndim - b) a then beta else 1)
    (dst.id, lin dst.grid (proj (fiberDims src.shape.length a b) u)) (if initFirst u (src.ndim - b) a then false else redux)) ?_ ?_ beta
    (redux := redux) (fun hb => ⟨y, hy hb⟩) (fun u _ => rfl) ?_
  · intro u hu
    have hul : u.length = src.shape.length := by rw [hu.length, hs.1.grid_length]
    have hSl := hs.1.tshape_length hu
    have hpt : u.getD a 0 :: (u.drop (src.ndim - b)).take b = proj (fiberDims src.shape.length a b) u := by
      rw [fiberIdx_eq hul hbl, fiberIdx, hul, Tensor.ndim, List.take_of_length_le (by simp; omega)]
    have hbt : (List.drop 1 (dst.tshape (proj (fiberDims src.shape.length a b) u))).prod = btOf (src.tshape u) b := by
      rw [hP.tshape hs.1 hu, fiberIdx_eq hSl hbl]; rfl
    rw [Tensor.handleL_ok (lin_lt hu), M.bind_ok, Tensor.tindex_lin hu, vget_ok (by omega), M.bind_ok, vslice,
      if_pos (by simp only [Tensor.ndim]; omega), M.bind_ok, hpt, Tensor.handleAt_ok (hP.tile_inBox hs.1 hu), M.bind_ok,
      Tensor.tshapeAt_ok (hP.tile_inBox hs.1 hu), M.bind_ok, hbt, Tensor.tshapeL_lin hu, nOf_div (by omega) (hs.1.tshape_pos hu)]
    split <;> rfl
  · intro u hu
    exact ⟨rfl, by simp [submitSumFiber, task1, hid]⟩
  · intro u hu
    have hSl := hs.1.tshape_length hu
    have hfl : dst.tshape (proj (fiberDims src.shape.length a b) u) = fiberIdx a b (src.tshape u) := by
      rw [hP.tshape hs.1 hu, fiberIdx_eq hSl hbl]
    have hf := hx.full hs hu
    rw [size4 (a := a) (b := b) (by omega)] at hf
    obtain ⟨W, hW⟩ := sumFiber_affine (alpha := alpha) hf
    rw [← sizeF, ← hfl] at hW
    exact ⟨W, hW _⟩

/-- `sumprod_fiber`; partial, because the operation does not check the tiling of `src2` (`C15_sumprod_fiber_refuted`). -/
theorem C27_sumprod_fiber_partial {src1 src2 dst : Tensor} {a : Nat} {s : Store ℝ} (hs : src1.Ready s) (hs2 : src2.Ready s) (hd : dst.Ready s)
    (hid : src1.id ≠ dst.id) (hid2 : src2.id ≠ dst.id) (h : dst.FiberOf src1 a 0) (hsh : src2.shape = src1.shape) (hbt : src2.basetile = src1.basetile)
    (alpha beta : ℝ) (redux : Bool) (x x' y : List Nat → ℝ) (hx : src1.Holds s x) (hx' : src2.Holds s x') (hy : beta ≠ 0 → dst.Holds s y) :
    ComputesRedux reduxAdd (sumprodFiberAsync alpha src1 src2 beta dst a redux) s dst
      (fun I => beta * y I + alpha * ∑ J ∈ (box src1.shape).filter (fun J => [J.getD a 0] = I), x J * x' J) := by
  have hCc := C15_sumprod_fiber_partial hs hs2 hd hid hid2 h hsh hbt alpha beta redux x x' y hx hx' hy
  have hax := h.axis
  have hP := h.projOf hs.1
  have hbl : 0 ≤ src1.shape.length := by omega
  have hg2 : src2.grid = src1.grid := by rw [Tensor.grid, hsh, hbt]; rfl
  have ht2 : ∀ t, src2.tshape t = src1.tshape t := fun t => by rw [Tensor.tshape, hsh, hbt]; rfl
  have hdn : dst.ndim = 1 := by simp [Tensor.ndim, h.shape]
  have hc := (checkPair_check hs.1 hd.1 (i := a) (j := 0) hax (by omega)).ok (by simp [h.shape, h.basetile])
  simp only [sumprodFiberAsync] at hCc ⊢
  rw [throwIf_neg (by simp [hsh]), M.bind_ok, throwIf_neg (by omega), M.bind_ok, throwIf_neg (by simp only [Tensor.ndim]; omega), M.bind_ok,
    throwIf_neg (by omega), M.bind_ok, throwIf_neg (by simp only [Tensor.ndim]; omega), M.bind_ok] at hCc ⊢
  simp only [Int.toNat_natCast, hc, M.bind_ok] at hCc ⊢
  refine fiberLoop_redux hs.1 hd h hCc (fun u => submitSumprodFiber (mOf (src1.tshape u) a) (nOf (src1.tshape u) a) (kOf (src1.tshape u) a)
    alpha (src1.id, lin src1.grid u) (src2.id, lin src1.grid u) (if initFirst u (src1.ndim - 0) a then beta else 1)
    (dst.id, lin dst.grid (proj (fiberDims src1.shape.length a 0) u)) (if initFirst u (src1.ndim - 0) a then false else redux)) ?_ ?_ beta
    (redux := redux) (fun hb => ⟨y, hy hb⟩) (fun u _ => rfl) ?_
  · intro u hu
    have hul : u.length = src1.shape.length := by rw [hu.length, hs.1.grid_length]
    have hpt : proj (fiberDims src1.shape.length a 0) u = [u.getD a 0] := by simp [proj, fiberDims]
    have hin := hP.tile_inBox hs.1 hu
    rw [hpt] at hin
    have hlin : lin dst.grid [u.getD a 0] = u.getD a 0 := by
      cases hg : dst.grid with
      | nil => rw [hg] at hin; simp [InBox] at hin
      | cons g G => simp [lin_cons]
    have hlt : u.getD a 0 < dst.ntiles := by have := lin_lt hin; rw [hlin] at this; exact this
    rw [Tensor.handleL_ok (lin_lt hu), M.bind_ok, Tensor.handleL_ok (by rw [Tensor.ntiles, hg2]; exact lin_lt hu), M.bind_ok, Tensor.tindex_lin hu,
      vget_ok (by omega), M.bind_ok, Tensor.handleL_ok hlt, M.bind_ok, Tensor.tshapeL_lin hu, hpt, hlin]
    simp only [Nat.sub_zero]
    split <;> rfl
  · intro u hu
    exact ⟨rfl, by simp [submitSumprodFiber, task2, hid, hid2]⟩
  · intro u hu
    have hSl := hs.1.tshape_length hu
    have hfl : dst.tshape (proj (fiberDims src1.shape.length a 0) u) = fiberIdx a 0 (src1.tshape u) := by
      rw [hP.tshape hs.1 hu, fiberIdx_eq hSl hbl]
    have hb1 : btOf (src1.tshape u) 0 = 1 := by simp [btOf]
    have hsz : (src1.tshape u).prod = mOf (src1.tshape u) a * (kOf (src1.tshape u) a * nOf (src1.tshape u) a) := prod_axis (by omega)
    have hszF : (fiberIdx a 0 (src1.tshape u)).prod = kOf (src1.tshape u) a := by rw [sizeF, hb1, Nat.mul_one]
    have hf := hx.full hs hu
    have hf2 := hx'.full hs2 (by rw [hg2]; exact hu)
    rw [ht2, hg2, hsz] at hf2
    rw [hsz] at hf
    obtain ⟨W, hW⟩ := sumprodFiber_affine (alpha := alpha) hf hf2
    refine ⟨W, ?_⟩
    rw [hfl, hszF]
    exact hW _

/-- `gemm`: there are values `v`, which sequential execution gives too, such that `C` holds `v` after any execution. -/
theorem C27_gemm {A B C : Tensor} {tA tB : TransOp} {nd bt : Nat} {s : Store ℝ} (hA : A.Ready s) (hB : B.Ready s) (hC : C.Ready s)
    (idA : A.id ≠ C.id) (idB : B.id ≠ C.id) {M K N R : List Nat} (hsh : GemmDims tA tB nd bt A.shape B.shape C.shape M K N R)
    (hbt : ∃ M' K' N' R', GemmDims tA tB nd bt A.basetile B.basetile C.basetile M' K' N' R')
    (alpha beta : ℝ) (redux : Bool) (x y z : List Nat → ℝ) (hx : A.Holds s x) (hy : B.Holds s y) (hz : beta ≠ 0 → C.Holds s z) :
    ∃ v, ComputesRedux reduxAdd (gemmAsync alpha tA A tB B beta C nd bt redux) s C v ∧
      ∀ I J b, InBox M I → InBox N J → InBox R b → v (I ++ J ++ b) = gemmVal tA tB K alpha beta x y z I J b := by
  obtain ⟨v, hv, hv'⟩ := C17_gemm hA hB hC idA idB hsh hbt alpha beta redux x y z hx hy hz
  refine ⟨v, ?_, hv'⟩
  obtain ⟨hK, hR, sA, sB, sC⟩ := hsh
  obtain ⟨M', K', N', R', hK', hR', bA, bB, bC⟩ := hbt
  have lA := hA.1.2.2
  have lB := hB.1.2.2
  rw [sA, bA, opCat_length, opCat_length] at lA
  rw [sB, bB, opCat_length, opCat_length] at lB
  have oA : A.IsOp tA M K R M' K' R' := ⟨by omega, by omega, by omega, sA, bA⟩
  have oB : B.IsOp tB K N R K' N' R' := ⟨by omega, by omega, by omega, sB, bB⟩
  have oC : C.IsOp .noTrans M N R M' N' R' := ⟨by omega, by omega, by omega, sC, bC⟩
  have gM : (gridOf M M').length = M.length := gridOf_length oA.lP
  have gN : (gridOf N N').length = N.length := gridOf_length oB.lQ
  refine computesRedux_of_tiles hC hv (fun t => (List.range (gridOf K K').prod).flatMap (fun l =>
      [gemmTask tA tB A B C M K N R M' K' N' R' alpha redux (if l = 0 then beta else 1) (t.take M.length)
        ((t.drop M.length).take N.length) (t.drop (M.length + N.length)) (unlin (gridOf K K') l)]))
      (gemmAsync_ok hA.1 hB.1 hC.1 oA oB oC hK hR alpha beta redux) ?_ ?_
  · intro t ht u hu
    simp only [List.mem_flatMap, List.mem_range, List.mem_singleton] at hu
    obtain ⟨l, -, rfl⟩ := hu
    refine ⟨?_, by simp [gemmTask, submitGemm, task2, idA, idB]⟩
    simp only [gemmTask, submitGemm, task2]
    rw [← List.drop_drop, List.append_assoc, List.take_append_drop, List.take_append_drop]
  · intro t ht
    have ht' := ht
    rw [oC.grid] at ht'
    simp only [opCat] at ht'
    obtain ⟨u, tR, rfl, hu, iR⟩ := ht'.exists_split
    obtain ⟨tM, tN, rfl, iM, iN⟩ := hu.exists_split
    have tk1 : (tM ++ tN ++ tR).take M.length = tM := by rw [List.append_assoc, take_of_length (by rw [iM.length, gM])]
    have tk2 : ((tM ++ tN ++ tR).drop M.length).take N.length = tN := by
      rw [List.append_assoc, drop_of_length (by rw [iM.length, gM]), take_of_length (by rw [iN.length, gN])]
    have tk3 : (tM ++ tN ++ tR).drop (M.length + N.length) = tR := by rw [drop_of_length (by simp [iM.length, iN.length, gM, gN])]
    simp only [tk1, tk2, tk3]
    have hts : C.tshape (tM ++ tN ++ tR) = tileShape M M' tM ++ tileShape N N' tN ++ tileShape R R' tR := oC.tshape iM iN
    have hprod : (C.tshape (tM ++ tN ++ tR)).prod = (tileShape M M' tM).prod * ((tileShape N N' tN).prod * (tileShape R R' tR).prod) := by
      rw [hts]; simp [List.prod_append, mul_assoc]
    have key : ∀ l, ∃ W, ∀ be, Affine (C.tshape (tM ++ tN ++ tR)).prod s (gemmTask tA tB A B C M K N R M' K' N' R' alpha redux be tM tN tR
        (unlin (gridOf K K') l)) be W := by
      intro l
      have iK := unlin_inBox (gridOf_pos K K') l
      have hfA := hx.full hA (oA.inBox iM iK iR)
      have hfB := hy.full hB (oB.inBox iK iN iR)
      have pA : (A.tshape (opCat tA tM (unlin (gridOf K K') l) tR)).prod =
          (tileShape M M' tM).prod * ((tileShape K K' (unlin (gridOf K K') l)).prod * (tileShape R R' tR).prod) := by
        rw [oA.tshape iM iK]; cases tA <;> simp [opCat, List.prod_append] <;> ring
      have pB : (B.tshape (opCat tB (unlin (gridOf K K') l) tN tR)).prod =
          (tileShape K K' (unlin (gridOf K K') l)).prod * ((tileShape N N' tN).prod * (tileShape R R' tR).prod) := by
        rw [oB.tshape iK iN]; cases tB <;> simp [opCat, List.prod_append] <;> ring
      rw [pA] at hfA
      rw [pB] at hfB
      obtain ⟨W, hW⟩ := gemm_affine (tA := tA) (tB := tB) (alpha := alpha) hfA hfB
      rw [← hprod] at hW
      exact ⟨W, fun be => hW be⟩
    rw [flatMap_single_cons (gridOf_pos K K').prod (fun l => gemmTask tA tB A B C M K N R M' K' N' R' alpha redux (if l = 0 then beta else 1) tM tN tR
      (unlin (gridOf K K') l))]
    refine reduces_sums (beta := beta) (r := redux) (r' := redux) rfl ?_ ?_ ?_ (hC.2.size ht) ?_
    · obtain ⟨W, hW⟩ := key 0
      exact ⟨W, hW beta⟩
    · intro u hu
      simp only [List.mem_map] at hu
      obtain ⟨j, -, rfl⟩ := hu
      rfl
    · intro u hu
      simp only [List.mem_map, List.mem_range] at hu
      obtain ⟨j, hj, rfl⟩ := hu
      obtain ⟨W, hW⟩ := key (j+1)
      exact ⟨W, hW 1⟩
    · intro hb
      exact ((hz hb).full hC ht).2

/-- `norm_slice`: the replicas are merged with `hypot`. -/
theorem C27_norm_slice {src dst : Tensor} {a : Nat} {s : Store ℝ} (hs : src.Ready s) (hd : dst.Ready s) (hid : src.id ≠ dst.id)
    (h : dst.SliceOf src a) (alpha beta : ℝ) (redux : Bool) (x y : List Nat → ℝ) (hx : src.Holds s x) (hy : beta ≠ 0 → dst.Holds s y) :
    ComputesRedux reduxHypot (normSliceAsync alpha src beta dst a redux) s dst
      (fun I => Real.sqrt ((beta * y I) ^ 2 + alpha ^ 2 * ∑ L ∈ range (src.shape.getD a 0), x (I.insertIdx a L) ^ 2)) := by
  have hC := C16_norm_slice hs hd hid h alpha beta redux x y hx hy
  obtain ⟨hn, hax, hc⟩ := slice_checks hs.1 hd.1 h
  have hg0 : 0 < src.grid.getD a 0 := (src.grid_pos).getD (h.axis_grid hs.1)
  simp only [normSliceAsync] at hC ⊢
  rw [throwIf_neg (by omega), M.bind_ok, throwIf_neg (by omega), M.bind_ok, throwIf_neg (by omega), M.bind_ok,
    throwIf_neg (by omega), M.bind_ok] at hC ⊢
  simp only [Int.toNat_natCast, hc, M.bind_ok] at hC ⊢
  refine sliceLoop_redux hs.1 hd h hC (fun be u => submitNormSlice (mOf (src.tshape u) a) (nOf (src.tshape u) a) (kOf (src.tshape u) a) alpha
    (src.id, lin src.grid u) be (dst.id, lin dst.grid (u.eraseIdx a)) redux) ?_ ?_
  · intro be u hu
    exact ⟨rfl, rfl, by simp [submitNormSlice, task1, hid]⟩
  · intro t ht
    have key : ∀ j, j < src.grid.getD a 0 → ∃ W, ∀ be, NormAffine (dst.tshape t).prod s (submitNormSlice (mOf (src.tshape (t.insertIdx a j)) a)
        (nOf (src.tshape (t.insertIdx a j)) a) (kOf (src.tshape (t.insertIdx a j)) a) alpha
        (src.id, lin src.grid (t.insertIdx a j)) be (dst.id, lin dst.grid ((t.insertIdx a j).eraseIdx a)) redux) be W := by
      intro j hj
      obtain ⟨hu, e1, e2⟩ := slice_sizes hs.1 h ht hj
      have hf := hx.full hs hu
      rw [e2] at hf
      obtain ⟨W, hW⟩ := normSlice_affine (alpha := alpha) hf
      rw [← e1] at hW
      exact ⟨W, fun be => hW be⟩
    refine reduces_norms (beta := beta) (r := redux) (r' := redux) rfl ?_ ?_ ?_ (hd.2.size ht) ?_
    · obtain ⟨W, hW⟩ := key 0 hg0
      exact ⟨W, hW beta⟩
    · intro u hu
      simp only [List.mem_map] at hu
      obtain ⟨j, -, rfl⟩ := hu
      rfl
    · intro u hu
      simp only [List.mem_map, List.mem_range] at hu
      obtain ⟨j, hj, rfl⟩ := hu
      obtain ⟨W, hW⟩ := key (j+1) (by omega)
      exact ⟨W, hW 1⟩
    · intro hb
      exact ((hy hb).full hd ht).2

/-- `maxsumexp`: the replicas are merged with `accumulate_maxsumexp`; `dst` may already hold the pairs `q` of other data. -/
theorem C27_maxsumexp {src dst : Tensor} {a : Nat} {s : Store XReal} (hs : src.Ready s) (hd : dst.Ready s) (hid : src.id ≠ dst.id)
    (h : dst.MseOf src a) (redux : Bool) (x : List Nat → XReal) (hx : src.Holds s x) (hxm : ∀ I, InBox src.shape I → (x I).NumOrMask)
    (q : List Nat → Mse) (hq : ∀ I, (q I).Valid) (hdq : dst.Holds s (fun I => (q I.tail).enc (I.headD 0))) :
    ∃ v, Computes (maxsumexpAsync src dst a redux) s dst v ∧ ComputesRedux reduxMse (maxsumexpAsync src dst a redux) s dst v ∧
      ∀ I, v I = (q I.tail + ∑ L ∈ range (src.shape.getD a 0), Mse.of (x (I.tail.insertIdx a L))).enc (I.headD 0) :=
  ⟨_, maxsumexp_computes hs hd hid h redux x hx hxm q hq hdq, maxsumexp_redux hs hd hid h redux x hx hxm q hq hdq, fun _ => rfl⟩

/-- Executions with replicas exist: of three accumulating tasks the last one is applied to the tile itself, the first two to two replicas that are merged
with each other before they are merged into the tile. -/
example (t1 t2 t3 : Task1 ℝ) (h1 : t1.mode = .REDUX) (h2 : t2.mode = .REDUX) (h3 : t3.mode = .REDUX) :
    (Plan.group (.merge (.task .old t3) (.merge (.task .init t2) (.task .init t1))) .done).Of [t1, t2, t3] := by
  refine ⟨[t1, t2, t3], [], rfl, by simp, ?_, by simp [h1, h2, h3], rfl, rfl⟩
  simp only [RTree.tasks, List.singleton_append]
  exact (List.reverse_perm [t1, t2, t3])

/-- The hypotheses are met, and the tasks do use the reduction mode: a `5×7×4` tensor cut into `2×3×4` tiles, summed along axis 1 with `beta = 1`. -/
example : ∃ (src dst : Tensor) (s : Store ℝ) (x z : List Nat → ℝ), src.ntiles = 9 ∧ src.Ready s ∧ dst.Ready s ∧
    src.id ≠ dst.id ∧ dst.SliceOf src 1 ∧ src.Holds s x ∧ dst.Holds s z ∧
    ∃ ts, sumSliceAsync (1 : ℝ) src 1 dst 1 true = .ok ts ∧ ∃ t1 t2 t3 rest, ts = t1 :: t2 :: t3 :: rest ∧ t1.out = t2.out ∧ t2.out = t3.out ∧
      t1.mode = .REDUX ∧ t2.mode = .REDUX ∧ t3.mode = .REDUX := by
  obtain ⟨s, h1, h2⟩ := exists_store2 (A := ⟨0, [5,7,4], [2,3,4]⟩) (B := ⟨1, [5,4], [2,4]⟩)
    (fun I => (lin [5,7,4] I : ℝ)) (fun _ => (1 : ℝ)) (by decide) (by decide) (by decide)
  refine ⟨_, _, s, _, _, by decide, h1.1, h2.1, by decide, ⟨by decide, by decide, by decide⟩, h1.2, h2.2, ?_⟩
  refine ⟨_, by
    simp [sumSliceAsync, throwIf, Tensor.ndim, checkErase, forCheck, forN, sliceReduceLoop, forTasks, Tensor.ntiles, Tensor.grid, gridOf,
      Tensor.handleL, vget, Tensor.handleAt, Tensor.tshapeAt, Tensor.tindex, unlin, InBox, lin, checkPair]; rfl, ?_⟩
  exact ⟨_, _, _, _, rfl, rfl, rfl, by simp [submitSumSlice, task1, reduceMode], by simp [submitSumSlice, task1, reduceMode],
    by simp [submitSumSlice, task1, reduceMode]⟩

end NNTile
