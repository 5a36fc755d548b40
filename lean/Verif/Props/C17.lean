import Verif.Lib.GemmTensor
import Verif.Lib.Store
/-!
# C17 — `gemm` (exact arithmetic)

`Spec/Gemm.lean` says what it means that the dimensions of `A`, `B`, `C` fit and what the value of the product is. The theorems hold for all four
pairs of transpositions, all numbers of contracted and of batch dimensions, all shapes, tilings and scalars.
-/
namespace NNTile
open Finset

set_option maxHeartbeats 1000000 in
/-- `C = alpha * op(A) * op(B) + beta * C`: element `I ++ J ++ b` of `C` becomes `alpha * sum_k op(A)[I,k,b] * op(B)[k,J,b] + beta * C[I,J,b]`, no other
tensor is changed and no tile or element outside of the tensors is accessed. If `beta = 0` nothing is assumed about the old `C`. -/
theorem C17_gemm {A B C : Tensor} {tA tB : TransOp} {nd bt : Nat} {s : Store ℝ} (hA : A.Ready s) (hB : B.Ready s) (hC : C.Ready s)
    (idA : A.id ≠ C.id) (idB : B.id ≠ C.id) {M K N R : List Nat} (hsh : GemmDims tA tB nd bt A.shape B.shape C.shape M K N R)
    (hbt : ∃ M' K' N' R', GemmDims tA tB nd bt A.basetile B.basetile C.basetile M' K' N' R')
    (alpha beta : ℝ) (redux : Bool) (x y z : List Nat → ℝ) (hx : A.Holds s x) (hy : B.Holds s y) (hz : beta ≠ 0 → C.Holds s z) :
    ∃ v, Computes (gemmAsync alpha tA A tB B beta C nd bt redux) s C v ∧
      ∀ I J b, InBox M I → InBox N J → InBox R b → v (I ++ J ++ b) = gemmVal tA tB K alpha beta x y z I J b := by
  obtain ⟨hK, hR, sA, sB, sC⟩ := hsh
  obtain ⟨M', K', N', R', hK', hR', bA, bB, bC⟩ := hbt
  have lA := hA.1.2.2
  have lB := hB.1.2.2
  rw [sA, bA, opCat_length, opCat_length] at lA
  rw [sB, bB, opCat_length, opCat_length] at lB
  have oA : A.IsOp tA M K R M' K' R' := ⟨by omega, by omega, by omega, sA, bA⟩
  have oB : B.IsOp tB K N R K' N' R' := ⟨by omega, by omega, by omega, sB, bB⟩
  have oC : C.IsOp .noTrans M N R M' N' R' := ⟨by omega, by omega, by omega, sC, bC⟩
  obtain ⟨⟨pM, pK, pR⟩, pM', pK', pR'⟩ := oA.pos hA.1
  obtain ⟨⟨-, pN, -⟩, -, pN', -⟩ := oB.pos hB.1
  have gM : (gridOf M M').length = M.length := gridOf_length oA.lP
  have gN : (gridOf N N').length = N.length := gridOf_length oB.lQ
  -- value after `l` tiles along the contraction
  let V : Nat → List Nat → List Nat → List Nat → ℝ := fun l I J b =>
    alpha * ∑ l' ∈ range l, ∑ q ∈ box (tileShape K K' (unlin (gridOf K K') l')),
      x (opCat tA I (globIdx K' (unlin (gridOf K K') l') q) b) * y (opCat tB (globIdx K' (unlin (gridOf K K') l') q) J b) + beta * z (I ++ J ++ b)
  refine ⟨fun L => V (gridOf K K').prod (L.take M.length) ((L.drop M.length).take N.length) (L.drop (M.length + N.length)), ?_, ?_⟩
  · refine computes_tiles hC (fun t => (List.range (gridOf K K').prod).flatMap (fun l =>
      [gemmTask tA tB A B C M K N R M' K' N' R' alpha redux (if l = 0 then beta else 1) (t.take M.length)
        ((t.drop M.length).take N.length) (t.drop (M.length + N.length)) (unlin (gridOf K K') l)]))
      (gemmAsync_ok hA.1 hB.1 hC.1 oA oB oC hK hR alpha beta redux) _ ?_ ?_
    · intro t ht u hu
      simp only [List.mem_flatMap, List.mem_range, List.mem_singleton] at hu
      obtain ⟨l, -, rfl⟩ := hu
      refine ⟨?_, by simp [gemmTask, submitGemm, task2, idA, idB]⟩
      simp only [gemmTask, submitGemm, task2]
      rw [← List.drop_drop, List.append_assoc, List.take_append_drop, List.take_append_drop]
    · intro t ht
      have ht' := ht
      rw [oC.grid] at ht'
      simp only [opCat] at ht'
      obtain ⟨u, tR, rfl, hu, iR⟩ := ht'.exists_split
      obtain ⟨tM, tN, rfl, iM, iN⟩ := hu.exists_split
      have tk1 : (tM ++ tN ++ tR).take M.length = tM := by rw [List.append_assoc, take_of_length (by rw [iM.length, gM])]
      have tk2 : ((tM ++ tN ++ tR).drop M.length).take N.length = tN := by
        rw [List.append_assoc, drop_of_length (by rw [iM.length, gM]), take_of_length (by rw [iN.length, gN])]
      have tk3 : (tM ++ tN ++ tR).drop (M.length + N.length) = tR := by rw [drop_of_length (by simp [iM.length, iN.length, gM, gN])]
      simp only [tk1, tk2, tk3]
      have hts : C.tshape (tM ++ tN ++ tR) = tileShape M M' tM ++ tileShape N N' tN ++ tileShape R R' tR := oC.tshape iM iN
      have hsz := hC.2.size ht
      have hprod : (C.tshape (tM ++ tN ++ tR)).prod = (tileShape M M' tM).prod * ((tileShape N N' tN).prod * (tileShape R R' tR).prod) := by
        rw [hts]; simp [List.prod_append, mul_assoc]
      have lM : tM.length = M.length := by rw [iM.length, gM]
      have lN : tN.length = N.length := by rw [iN.length, gN]
      have hglob : ∀ i j b, InBox (tileShape M M' tM) i → InBox (tileShape N N' tN) j → globIdx C.basetile (tM ++ tN ++ tR) (i ++ j ++ b) =
          globIdx M' tM i ++ globIdx N' tN j ++ globIdx R' tR b := fun i j b hi hj => oC.glob iM iN hi hj
      obtain ⟨b', e, e1, -, e2⟩ := foldBuf_range_inv (s := s) (N := (gridOf K K').prod)
        (task := fun l => gemmTask tA tB A B C M K N R M' K' N' R' alpha redux (if l = 0 then beta else 1) tM tN tR (unlin (gridOf K K') l))
        (b := s (C.id, lin C.grid (tM ++ tN ++ tR)))
        (fun l c => c.size = (C.tshape (tM ++ tN ++ tR)).prod ∧ (l = 0 → c = s (C.id, lin C.grid (tM ++ tN ++ tR))) ∧
          (0 < l → ∀ i j b, InBox (tileShape M M' tM) i → InBox (tileShape N N' tN) j → InBox (tileShape R R' tR) b →
            c.data (lin (tileShape M M' tM ++ tileShape N N' tN ++ tileShape R R' tR) (i ++ j ++ b)) =
              some (V l (globIdx M' tM i) (globIdx N' tN j) (globIdx R' tR b))))
        ⟨hsz, fun _ => rfl, fun h => by omega⟩ (by
          rintro l hl c ⟨c1, c2, c3⟩
          have iK := unlin_inBox (gridOf_pos K K') l
          rcases Nat.eq_zero_or_pos l with rfl | hpos
          · obtain ⟨b', f1, f2, f3⟩ := gemm_tile hA hB oA oB iM iK iN iR hx hy (alpha := alpha) (beta := beta)
              (w := fun i j b => z (globIdx M' tM i ++ globIdx N' tN j ++ globIdx R' tR b))
              (o := if beta = 0 then Buf.undef c.size else c) (by rw [← hprod, ← c1]; split <;> rfl) (by
                intro hb i j b hi hj hb'
                have hin : InBox (C.tshape (tM ++ tN ++ tR)) (i ++ j ++ b) := by rw [hts]; exact (hi.append hj).append hb'
                rw [if_neg hb, c2 rfl, ← hts, ← hC.1.get_glob ht hin, ← hglob i j b hi hj]
                exact hz hb _ (hC.1.glob ht hin).1)
            refine ⟨b', ?_, by rw [f2, ← c1]; split <;> rfl, by omega, fun _ i j b hi hj hb => ?_⟩
            · simp only [gemmTask, submitGemm, task2, reduceMode_inp, if_true]
              exact f1
            · rw [f3 i j b hi hj hb]
              simp only [V, zero_add, sum_range_one]
          · obtain ⟨b', f1, f2, f3⟩ := gemm_tile hA hB oA oB iM iK iN iR hx hy (alpha := alpha) (beta := 1)
              (w := fun i j b => V l (globIdx M' tM i) (globIdx N' tN j) (globIdx R' tR b))
              (o := c) (by rw [← hprod, ← c1]) (fun _ i j b hi hj hb' => c3 hpos i j b hi hj hb')
            refine ⟨b', ?_, by rw [f2, ← c1], by omega, fun _ i j b hi hj hb => ?_⟩
            · simp only [gemmTask, submitGemm, task2, reduceMode_inp, if_neg (show l ≠ 0 by omega), if_neg (one_ne_zero (α := ℝ))]
              exact f1
            · rw [f3 i j b hi hj hb]
              simp only [V, sum_range_succ]
              congr 1
              ring)
      refine ⟨b', e, by rw [e1, hsz], ?_⟩
      intro l hl
      rw [hts] at hl
      obtain ⟨u, b, rfl, hu, hb⟩ := hl.exists_split
      obtain ⟨i, j, rfl, hi, hj⟩ := hu.exists_split
      rw [hts, e2 (gridOf_pos K K').prod i j b hi hj hb, hglob i j b hi hj]
      have lI : (globIdx M' tM i).length = M.length := (globIdx_inBox oA.lP lM hi).length
      have lJ : (globIdx N' tN j).length = N.length := (globIdx_inBox oB.lQ lN hj).length
      have q1 : (globIdx M' tM i ++ globIdx N' tN j ++ globIdx R' tR b).take M.length = globIdx M' tM i := by
        rw [List.append_assoc, take_of_length lI.symm]
      have q2 : ((globIdx M' tM i ++ globIdx N' tN j ++ globIdx R' tR b).drop M.length).take N.length = globIdx N' tN j := by
        rw [List.append_assoc, drop_of_length lI.symm, take_of_length lJ.symm]
      have q3 : (globIdx M' tM i ++ globIdx N' tN j ++ globIdx R' tR b).drop (M.length + N.length) = globIdx R' tR b := by
        rw [drop_of_length (by simp [lI, lJ])]
      rw [q1, q2, q3]
  · intro I J b hI hJ hb
    have q1 : (I ++ J ++ b).take M.length = I := by rw [List.append_assoc, take_of_length hI.length.symm]
    have q2 : ((I ++ J ++ b).drop M.length).take N.length = J := by
      rw [List.append_assoc, drop_of_length hI.length.symm, take_of_length hJ.length.symm]
    have q3 : (I ++ J ++ b).drop (M.length + N.length) = b := by rw [drop_of_length (by simp [hI.length, hJ.length])]
    simp only [q1, q2, q3, V, gemmVal]
    rw [sum_box_tiles pK pK' oA.lQ, sum_box (gridOf_pos K K')]

/-- `gemm` (and `gemm_ex`) throws for all other arguments: exactly the operands whose shapes and tilings fit are accepted. -/
theorem C17_gemm_rejects {α : Type} [FP α] {A B C : Tensor} (hA : A.WF) (hB : B.WF) (hC : C.WF) (tA tB : TransOp) (alpha beta : α)
    (ndim batch_ndim : Int) (redux : Bool) (h : ¬ ∃ nd bt : Nat, ndim = nd ∧ batch_ndim = bt ∧ GemmFit tA tB nd bt A B C) :
    Throws (gemmAsync alpha tA A tB B beta C ndim batch_ndim redux) := by
  simp only [gemmAsync]
  exact (gemmCheck_check hA hB hC).throws h

/-- The plain matrix case, stated with `Fin`-free indices: `A` is `m × k`, `B` is `k × n`, `C` is `m × n`, any tilings that fit. -/
theorem C17_gemm_matrix {A B C : Tensor} {s : Store ℝ} (hA : A.Ready s) (hB : B.Ready s) (hC : C.Ready s)
    (idA : A.id ≠ C.id) (idB : B.id ≠ C.id) {m k n m' k' n' : Nat} (sA : A.shape = [m, k]) (sB : B.shape = [k, n]) (sC : C.shape = [m, n])
    (bA : A.basetile = [m', k']) (bB : B.basetile = [k', n']) (bC : C.basetile = [m', n']) (x y : List Nat → ℝ) (hx : A.Holds s x)
    (hy : B.Holds s y) (redux : Bool) :
    ∃ tasks s', gemmAsync 1 .noTrans A .noTrans B 0 C 1 0 redux = .ok tasks ∧ runAll1 tasks s = .ok s' ∧
      ∀ i j, i < m → j < n → C.get s' [i, j] = some (∑ l ∈ range k, x [i, l] * y [l, j]) := by
  obtain ⟨v, ⟨tasks, s', h1, h2, h3, -, -⟩, hv⟩ := C17_gemm (tA := .noTrans) (tB := .noTrans) (nd := 1) (bt := 0) hA hB hC idA idB (M := [m]) (K := [k])
    (N := [n]) (R := []) ⟨rfl, rfl, by simpa [opCat] using sA, by simpa [opCat] using sB, by simpa using sC⟩
    ⟨[m'], [k'], [n'], [], rfl, rfl, by simpa [opCat] using bA, by simpa [opCat] using bB, by simpa using bC⟩ 1 0 redux x y (fun _ => 0) hx hy (by simp)
  refine ⟨tasks, s', h1, h2, ?_⟩
  intro i j hi hj
  have hg := h3 [i, j] (by rw [sC]; exact ⟨hi, hj, trivial⟩)
  have hv' := hv [i] [j] [] ⟨hi, trivial⟩ ⟨hj, trivial⟩ trivial
  simp only [List.append_nil, List.singleton_append] at hv'
  rw [hg, hv']
  have hk : 0 < k := (hA.1.1) k (by simp [sA])
  simp only [gemmVal, opCat, one_mul, zero_mul, add_zero]
  rw [sum_box (by simpa using hk)]
  simp only [List.prod_cons, List.prod_nil, mul_one, unlin_cons, unlin_nil]
  congr 1
  apply sum_congr rfl
  intro l hl
  rw [Nat.mod_eq_of_lt (mem_range.1 hl)]
  simp

/-- The hypotheses are met by a batched product with one transposed operand: `A` is `5×7×3` (`M`, `K`, batch), `B` is `4×7×3` (`N`, `K`, batch, transposed),
`C` is `5×4×3`, in tiles of `2×3×2`, `3×3×2` and `2×3×2`. -/
example : ∃ (A B C : Tensor) (s : Store ℝ) (x y z : List Nat → ℝ), A.ntiles = 18 ∧ A.Ready s ∧ B.Ready s ∧ C.Ready s ∧ A.id ≠ C.id ∧ B.id ≠ C.id ∧
    GemmDims .noTrans .trans 1 1 A.shape B.shape C.shape [5] [7] [4] [3] ∧
    GemmDims .noTrans .trans 1 1 A.basetile B.basetile C.basetile [2] [3] [3] [2] ∧ A.Holds s x ∧ B.Holds s y ∧ C.Holds s z := by
  obtain ⟨s, h1, h2, h3⟩ := exists_store3 (A := ⟨0, [5,7,3], [2,3,2]⟩) (B := ⟨1, [4,7,3], [3,3,2]⟩) (C := ⟨2, [5,4,3], [2,3,2]⟩)
    (fun I => (lin [5,7,3] I : ℝ)) (fun I => (lin [4,7,3] I : ℝ)) (fun _ => (1 : ℝ)) (by decide) (by decide) (by decide) (by decide) (by decide) (by decide)
  exact ⟨_, _, _, s, _, _, _, by decide, h1.1, h2.1, h3.1, by decide, by decide, ⟨rfl, rfl, rfl, rfl, rfl⟩, ⟨rfl, rfl, rfl, rfl, rfl⟩, h1.2, h2.2, h3.2⟩

end NNTile
