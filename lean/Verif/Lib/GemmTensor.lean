import Verif.Lib.Gemm
/-! The tile loop of `gemm`. -/
namespace NNTile
open Finset
variable {α : Type}

theorem take_of_length {P Q : List Nat} {n : Nat} (h : n = P.length) : (P ++ Q).take n = P := by subst h; simp
theorem drop_of_length {P Q : List Nat} {n : Nat} (h : n = P.length) : (P ++ Q).drop n = Q := by subst h; simp

/-- The task of `gemm` for the tiles with the given row, column, batch and contraction indices. -/
def gemmTask [FP α] (tA tB : TransOp) (A B C : Tensor) (M K N R M' K' N' R' : List Nat) (alpha : α) (redux : Bool) (be : α) (tM tN tR tK : List Nat) : Task1 α :=
  submitGemm tA tB (tileShape M M' tM).prod (tileShape N N' tN).prod (tileShape K K' tK).prod (tileShape R R' tR).prod alpha
    (A.id, lin A.grid (opCat tA tM tK tR)) (B.id, lin B.grid (opCat tB tK tN tR)) be (C.id, lin C.grid (tM ++ tN ++ tR)) redux

section
variable {tA tB : TransOp} {A B C : Tensor} {M K N R M' K' N' R' : List Nat} {nd bt : Nat}

set_option maxHeartbeats 1000000 in
/-- The tasks submitted by `gemm`. -/
theorem gemmAsync_ok [FP α] (hA : A.WF) (hB : B.WF) (hC : C.WF) (oA : A.IsOp tA M K R M' K' R') (oB : B.IsOp tB K N R K' N' R')
    (oC : C.IsOp .noTrans M N R M' N' R') (hK : K.length = nd) (hR : R.length = bt) (alpha beta : α) (redux : Bool) :
    gemmAsync alpha tA A tB B beta C nd bt redux = .ok ((List.range C.ntiles).flatMap (fun c => (List.range (gridOf K K').prod).flatMap (fun l =>
      [gemmTask tA tB A B C M K N R M' K' N' R' alpha redux (if l = 0 then beta else 1) ((C.tindex c).take M.length)
        (((C.tindex c).drop M.length).take N.length) ((C.tindex c).drop (M.length + N.length)) (unlin (gridOf K K') l)]))) := by
  have lA : A.ndim = M.length + K.length + R.length := by rw [Tensor.ndim, oA.shape, opCat_length]
  have lB : B.ndim = K.length + N.length + R.length := by rw [Tensor.ndim, oB.shape, opCat_length]
  have lC : C.ndim = M.length + N.length + R.length := by rw [Tensor.ndim, oC.shape, opCat_length]
  have hchk := (gemmCheck_check (tA := tA) (tB := tB) hA hB hC (ndim := nd) (batch_ndim := bt)).ok
    ⟨nd, bt, rfl, rfl, ⟨M, K, N, R, hK, hR, oA.shape, oB.shape, oC.shape⟩,
      ⟨M', K', N', R', oA.lQ.trans hK, oA.lR.trans hR, oA.basetile, oB.basetile, oC.basetile⟩⟩
  have gM : (gridOf M M').length = M.length := gridOf_length oA.lP
  have gK : (gridOf K K').length = K.length := gridOf_length oA.lQ
  have gN : (gridOf N N').length = N.length := gridOf_length oB.lQ
  have gR : (gridOf R R').length = R.length := gridOf_length oA.lR
  have pM := gridOf_pos M M'
  have pK := gridOf_pos K K'
  have pN := gridOf_pos N N'
  have pR := gridOf_pos R R'
  have hd : A.ndim - bt - nd = M.length := by omega
  have hd2 : C.ndim - bt = M.length + N.length := by omega
  have cg : C.grid = gridOf M M' ++ (gridOf N N' ++ gridOf R R') := by rw [oC.grid]; simp [opCat]
  have e1 : msRows C.grid M.length = (gridOf M M').prod := by rw [msRows, cg, take_of_length gM.symm]
  have e2 : msCols C.grid (M.length + N.length) = (gridOf R R').prod := by
    rw [msCols, cg, ← List.append_assoc, drop_of_length (by simp [gM, gN])]
  have e3 : msCols C.grid M.length / (gridOf R R').prod = (gridOf N N').prod := by
    rw [msCols, cg, drop_of_length gM.symm, List.prod_append, Nat.mul_div_cancel _ pR.prod]
  have e4 : (tA.sel (msCols A.grid M.length / (gridOf R R').prod) (msRows A.grid nd)) = (gridOf K K').prod := by
    cases tA
    · simp only [TransOp.sel]
      rw [msCols, oA.grid]
      simp only [opCat, List.append_assoc]
      rw [drop_of_length gM.symm, List.prod_append, Nat.mul_div_cancel _ pR.prod]
    · simp only [TransOp.sel]
      rw [msRows, oA.grid]
      simp only [opCat, List.append_assoc]
      rw [take_of_length (by rw [gK, hK])]
  simp only [gemmAsync, hchk, NNTile.M.bind_ok, Int.toNat_natCast, hd, hd2, e1, e2, e3]
  -- flatten the loops
  rw [oC.ntiles, show (gridOf M M').prod * ((gridOf N N').prod * (gridOf R R').prod) = (gridOf R R').prod * ((gridOf N N').prod * (gridOf M M').prod) by ring,
    ← flatMap_range_mul]
  apply forTasks_ok
  intro b hb
  rw [← flatMap_range_mul]
  apply forTasks_ok
  intro j hj
  apply forTasks_ok
  intro i hi
  have iM := unlin_inBox pM i
  have iN := unlin_inBox pN j
  have iR := unlin_inBox pR b
  have hoff : b * ((gridOf N N').prod * (gridOf M M').prod) + (j * (gridOf M M').prod + i) = (b * (gridOf N N').prod + j) * (gridOf M M').prod + i := by ring
  rw [hoff]
  have hlinC : lin C.grid (unlin (gridOf M M') i ++ unlin (gridOf N N') j ++ unlin (gridOf R R') b) = (b * (gridOf N N').prod + j) * (gridOf M M').prod + i := by
    have := oC.lin (r := unlin (gridOf R R') b) iM iN
    simp only [opCat] at this
    rw [this, lin_unlin hi, lin_unlin hj, lin_unlin hb]
    simp only [opOff]; ring
  have hinC : InBox C.grid (unlin (gridOf M M') i ++ unlin (gridOf N N') j ++ unlin (gridOf R R') b) := oC.inBox iM iN iR
  have hti : C.tindex ((b * (gridOf N N').prod + j) * (gridOf M M').prod + i) = unlin (gridOf M M') i ++ unlin (gridOf N N') j ++ unlin (gridOf R R') b := by
    rw [← hlinC, Tensor.tindex_lin hinC]
  have hlt : (b * (gridOf N N').prod + j) * (gridOf M M').prod + i < C.ntiles := by rw [← hlinC]; exact lin_lt hinC
  have hts : C.tshapeL ((b * (gridOf N N').prod + j) * (gridOf M M').prod + i) =
      tileShape M M' (unlin (gridOf M M') i) ++ (tileShape N N' (unlin (gridOf N N') j) ++ tileShape R R' (unlin (gridOf R R') b)) := by
    rw [Tensor.tshapeL, hti, ← List.append_assoc]
    exact oC.tshape iM iN
  have tM : (unlin (gridOf M M') i).length = M.length := by rw [unlin_length, gM]
  have tN : (unlin (gridOf N N') j).length = N.length := by rw [unlin_length, gN]
  have tR : (unlin (gridOf R R') b).length = R.length := by rw [unlin_length, gR]
  have sM := tileShape_length oA.lP tM
  have sN := tileShape_length oB.lQ tN
  have sRp : 0 < (tileShape R R' (unlin (gridOf R R') b)).prod := (tileShape_pos (oA.pos hA).1.2.2 (oA.pos hA).2.2.2 oA.lR iR).prod
  rw [Tensor.handleL_ok hlt, NNTile.M.bind_ok]
  have f1 : msRows (C.tshapeL ((b * (gridOf N N').prod + j) * (gridOf M M').prod + i)) M.length = (tileShape M M' (unlin (gridOf M M') i)).prod := by
    rw [msRows, hts, take_of_length sM.symm]
  have f2 : msCols (C.tshapeL ((b * (gridOf N N').prod + j) * (gridOf M M').prod + i)) (M.length + N.length) = (tileShape R R' (unlin (gridOf R R') b)).prod := by
    rw [msCols, hts, ← List.append_assoc, drop_of_length (by simp [sM, sN])]
  have f3 : msCols (C.tshapeL ((b * (gridOf N N').prod + j) * (gridOf M M').prod + i)) M.length / (tileShape R R' (unlin (gridOf R R') b)).prod =
      (tileShape N N' (unlin (gridOf N N') j)).prod := by
    rw [msCols, hts, drop_of_length sM.symm, List.prod_append, Nat.mul_div_cancel _ sRp]
  simp only [f1, f2, f3]
  -- tiles of A and B
  have hkA : ∀ l, l < (gridOf K K').prod → opOff tA (gridOf M M').prod (gridOf K K').prod i l b =
      lin A.grid (opCat tA (unlin (gridOf M M') i) (unlin (gridOf K K') l) (unlin (gridOf R R') b)) := by
    intro l hl
    rw [oA.lin iM (unlin_inBox pK l), lin_unlin hi, lin_unlin hl, lin_unlin hb]
  have hkB : ∀ l, l < (gridOf K K').prod → opOff tB (gridOf K K').prod (gridOf N N').prod l j b =
      lin B.grid (opCat tB (unlin (gridOf K K') l) (unlin (gridOf N N') j) (unlin (gridOf R R') b)) := by
    intro l hl
    rw [oB.lin (unlin_inBox pK l) iN, lin_unlin hj, lin_unlin hl, lin_unlin hb]
  have hinA : ∀ l, InBox A.grid (opCat tA (unlin (gridOf M M') i) (unlin (gridOf K K') l) (unlin (gridOf R R') b)) :=
    fun l => oA.inBox iM (unlin_inBox pK l) iR
  have hinB : ∀ l, InBox B.grid (opCat tB (unlin (gridOf K K') l) (unlin (gridOf N N') j) (unlin (gridOf R R') b)) :=
    fun l => oB.inBox (unlin_inBox pK l) iN iR
  have hhA : ∀ l, l < (gridOf K K').prod → A.handleL (opOff tA (gridOf M M').prod (gridOf K K').prod i l b) =
      .ok (A.id, lin A.grid (opCat tA (unlin (gridOf M M') i) (unlin (gridOf K K') l) (unlin (gridOf R R') b))) := by
    intro l hl
    rw [hkA l hl, Tensor.handleL_ok (lin_lt (hinA l))]
  have hhB : ∀ l, l < (gridOf K K').prod → B.handleL (opOff tB (gridOf K K').prod (gridOf N N').prod l j b) =
      .ok (B.id, lin B.grid (opCat tB (unlin (gridOf K K') l) (unlin (gridOf N N') j) (unlin (gridOf R R') b))) := by
    intro l hl
    rw [hkB l hl, Tensor.handleL_ok (lin_lt (hinB l))]
  have htk : ∀ l, l < (gridOf K K').prod → tA.sel (msCols (A.tshapeL (opOff tA (gridOf M M').prod (gridOf K K').prod i l b)) M.length / (tileShape R R' (unlin (gridOf R R') b)).prod)
      (msRows (A.tshapeL (opOff tA (gridOf M M').prod (gridOf K K').prod i l b)) nd) = (tileShape K K' (unlin (gridOf K K') l)).prod := by
    intro l hl
    have hsh : A.tshapeL (opOff tA (gridOf M M').prod (gridOf K K').prod i l b) =
        opCat tA (tileShape M M' (unlin (gridOf M M') i)) (tileShape K K' (unlin (gridOf K K') l)) (tileShape R R' (unlin (gridOf R R') b)) := by
      rw [hkA l hl, Tensor.tshapeL, Tensor.tindex_lin (hinA l), oA.tshape iM (unlin_inBox pK l)]
    have sK := tileShape_length (S := K) (B := K') (T := unlin (gridOf K K') l) oA.lQ (by rw [unlin_length, gK])
    rw [hsh]
    cases tA
    · simp only [opCat, List.append_assoc, TransOp.sel]
      rw [msCols, drop_of_length sM.symm, List.prod_append, Nat.mul_div_cancel _ sRp]
    · simp only [opCat, List.append_assoc, TransOp.sel]
      rw [msRows, take_of_length (by rw [sK, hK])]
  have kpos : 0 < (gridOf K K').prod := pK.prod
  have oA0 : ∀ l, (tA.sel (1, (gridOf M M').prod) ((tA.sel (msCols A.grid M.length / (gridOf R R').prod) (msRows A.grid nd)), 1)).1 * i
      + b * (gridOf M M').prod * (tA.sel (msCols A.grid M.length / (gridOf R R').prod) (msRows A.grid nd))
      + l * (tA.sel (1, (gridOf M M').prod) ((tA.sel (msCols A.grid M.length / (gridOf R R').prod) (msRows A.grid nd)), 1)).2
      = opOff tA (gridOf M M').prod (gridOf K K').prod i l b := by
    intro l
    rw [e4]
    cases tA
    · simp only [opOff, TransOp.sel]; ring
    · simp only [opOff, TransOp.sel]; ring
  have oB0 : ∀ l, (tB.sel (1, (tA.sel (msCols A.grid M.length / (gridOf R R').prod) (msRows A.grid nd))) ((gridOf N N').prod, 1)).2 * j
      + b * (gridOf N N').prod * (tA.sel (msCols A.grid M.length / (gridOf R R').prod) (msRows A.grid nd))
      + l * (tB.sel (1, (tA.sel (msCols A.grid M.length / (gridOf R R').prod) (msRows A.grid nd))) ((gridOf N N').prod, 1)).1
      = opOff tB (gridOf K K').prod (gridOf N N').prod l j b := by
    intro l
    rw [e4]
    cases tB
    · simp only [opOff, TransOp.sel]; ring
    · simp only [opOff, TransOp.sel]; ring
  have oA1 := oA0 0
  have oB1 := oB0 0
  rw [Nat.zero_mul, Nat.add_zero] at oA1 oB1
  have tk1 : ((C.tindex ((b * (gridOf N N').prod + j) * (gridOf M M').prod + i)).take M.length) = unlin (gridOf M M') i := by
    rw [hti, List.append_assoc, take_of_length tM.symm]
  have tk2 : (((C.tindex ((b * (gridOf N N').prod + j) * (gridOf M M').prod + i)).drop M.length).take N.length) = unlin (gridOf N N') j := by
    rw [hti, List.append_assoc, drop_of_length tM.symm, take_of_length tN.symm]
  have tk3 : ((C.tindex ((b * (gridOf N N').prod + j) * (gridOf M M').prod + i)).drop (M.length + N.length)) = unlin (gridOf R R') b := by
    rw [hti, drop_of_length (by simp [tM, tN, gM, gN])]
  rw [tk1, tk2, tk3, range_flatMap_first kpos]
  rw [oA1, oB1, hhA 0 kpos, hhB 0 kpos, NNTile.M.bind_ok, NNTile.M.bind_ok]
  rw [forTasks_ok (g := fun l => [gemmTask tA tB A B C M K N R M' K' N' R' alpha redux 1 (unlin (gridOf M M') i)
        (unlin (gridOf N N') j) (unlin (gridOf R R') b) (unlin (gridOf K K') (l + 1))])]
  · rw [NNTile.M.bind_ok, e4, htk 0 kpos]
    simp only [gemmTask, hlinC, if_true, Nat.succ_ne_zero, if_false]
  · intro l hl
    rw [e4] at hl
    rw [← oA1, ← oB1, oA0 (l + 1), oB0 (l + 1), hhA (l + 1) (by omega), hhB (l + 1) (by omega), NNTile.M.bind_ok, NNTile.M.bind_ok, htk (l + 1) (by omega)]
    simp only [gemmTask, hlinC]

end

end NNTile
