import Verif.Lib.FlashTiles
import Verif.Lib.Contract
/-! `flash_maxsumexp` and `flash_softmax_gemm`, tile by tile. -/
namespace NNTile
variable {α : Type}

theorem fold_frame {s s' : Store α} {u : Task1 α} {b : Buf α} (h : ∀ r ∈ u.reads, s r = s' r) : u.fn (u.reads.map s) b = u.fn (u.reads.map s') b := by
  rw [List.map_congr_left h]

section
variable [FP α] {z t : AttnDims} (ft : FlashTiles z t) (fp : FlashPos z t)
include ft fp

set_option maxHeartbeats 1000000 in
/-- One tile of scores. -/
theorem gemm_scores_tile {X Y A : Tensor} (hX : X.IsHeads z t) (hY : Y.IsHeads z t) (hA : A.IsScores z t) (wX : X.WF) (wY : Y.WF) (wA : A.WF)
    (iX : X.id ≠ A.id) (iY : Y.id ≠ A.id) {s s' : Store α} (hs : A.Alloc s) (h00 : FP.eqb (0 : α) 0 = true) (scale : α)
    (e : Exec (gemmAsync scale .trans X .noTrans Y 0 A 1 2 false) s s') :
    (∀ k : Handle, k.1 ≠ A.id → s' k = s k) ∧ ∀ j i n m, j < z.S / t.S → i < z.S / t.S → n < z.B / t.B → m < z.H / t.H →
      gemmKernel .trans .noTrans t.S t.S t.D (t.B * t.H) scale (s (X.id, lin X.grid [0, j, n, m])) (s (Y.id, lin Y.grid [0, i, n, m])) 0
        (Buf.undef [t.S, t.S, t.B, t.H].prod) = .ok (s' (A.id, lin A.grid [j, i, n, m])) := by
  have hB := gemm_byTiles (α := α) (tA := .trans) (tB := .noTrans) (M := [z.S]) (K := [z.D]) (N := [z.S]) (R := [z.B, z.H]) (M' := [t.S]) (K' := [t.D]) (N' := [t.S])
    (R' := [t.B, t.H]) wX wY wA ⟨rfl, rfl, rfl, hX.1, hX.2⟩ ⟨rfl, rfl, rfl, hY.1, hY.2⟩ ⟨rfl, rfl, rfl, hA.1, hA.2⟩ (nd := 1) (bt := 2) rfl rfl iX iY scale 0 false
  have gA := hA.grid ft fp
  have key : ∀ j i n m, j < z.S / t.S → i < z.S / t.S → n < z.B / t.B → m < z.H / t.H →
      gemmKernel .trans .noTrans t.S t.S t.D (t.B * t.H) scale (s (X.id, lin X.grid [0, j, n, m])) (s (Y.id, lin Y.grid [0, i, n, m])) 0
        (Buf.undef [t.S, t.S, t.B, t.H].prod) = .ok (s' (A.id, lin A.grid [j, i, n, m])) := by
    intro j i n m hj hi hn hm
    have hin : InBox A.grid [j, i, n, m] := by rw [gA]; exact ⟨hj, hi, hn, hm, trivial⟩
    have := hB.tile e hin
    have g1 : (gridOf [z.D] [t.D]).prod = 1 := by simp [gridOf, one_tile ft fp]
    rw [g1] at this
    simp only [List.range_one, List.map_cons, List.map_nil] at this
    have := foldBuf_one this
    simp only [gemmTask, submitGemm, task2, gridOf, one_tile ft fp, unlin, reduceMode, h00, if_true, Task1.inp, List.length_cons, List.length_nil, List.take, List.drop,
      opCat, List.map_cons, List.map_nil, List.cons_append, List.nil_append, Nat.zero_mod, Nat.reduceAdd, hs.size hin, hA.tshape ft hj hi hn hm, tileShape, even_tile ft.S hj,
      even_tile ft.S hi, even_tile ft.B hn, even_tile ft.H hm, Nat.zero_mul, Nat.sub_zero, ← ft.D, Nat.min_self, List.prod_cons, List.prod_nil, Nat.mul_one] at this
    simpa only [List.prod_cons, List.prod_nil, Nat.mul_one] using this
  exact ⟨fun k hk => hB.frame e hk, key⟩

theorem mask_tile {mask A : Tensor} (hm : mask.IsMask z t) (hA : A.IsScores z t) (wm : mask.WF) (wA : A.WF) (im : mask.id ≠ A.id) {s s' : Store α}
    (asBool : α → Bool) (val : α) (e : Exec (maskScalarAsync asBool mask val A 2) s s') :
    (∀ k : Handle, k.1 ≠ A.id → s' k = s k) ∧ ∀ j i n m, j < z.S / t.S → i < z.S / t.S → n < z.B / t.B → m < z.H / t.H →
      maskScalarKernel asBool (t.S * t.S) (t.B * t.H) (s (mask.id, lin mask.grid [j, i])) val (s (A.id, lin A.grid [j, i, n, m])) =
        .ok (s' (A.id, lin A.grid [j, i, n, m])) := by
  have hT : mask.LeadOf A := ⟨by rw [hm.1, hA.1]; simp, by rw [hm.1, hA.1]; rfl, by rw [hm.2, hm.1, hA.2]; rfl⟩
  have hB := mask_byTiles asBool wm wA im hT val
  have h2 : mask.ndim = 2 := by simp [Tensor.ndim, hm.1]
  have hnd : (A.ndim : Int) - mask.ndim = 2 := by rw [h2]; simp [Tensor.ndim, hA.1]
  rw [hnd] at hB
  have gA := hA.grid ft fp
  refine ⟨fun k hk => hB.frame e hk, fun j i n m hj hi hn hm => ?_⟩
  have hin : InBox A.grid [j, i, n, m] := by rw [gA]; exact ⟨hj, hi, hn, hm, trivial⟩
  have := foldBuf_one (hB.tile e hin)
  simpa only [submitMaskScalar, task1, Task1.inp, h2, hA.tshape ft hj hi hn hm, List.take, List.drop, List.map_cons, List.map_nil, List.prod_cons, List.prod_nil,
    Nat.mul_one, reduceCtorEq, if_false] using this

theorem softmax_tile {mse A : Tensor} (hm : mse.IsPairs z t) (hA : A.IsScores z t) (wm : mse.WF) (wA : A.WF) (im : mse.id ≠ A.id) {s s' : Store α}
    (e : Exec (softmaxInplaceAsync mse 1 A 0) s s') :
    (∀ k : Handle, k.1 ≠ A.id → s' k = s k) ∧ ∀ j i n m, j < z.S / t.S → i < z.S / t.S → n < z.B / t.B → m < z.H / t.H →
      softmaxInplaceKernel 1 (t.S * (t.B * t.H)) t.S (s (mse.id, lin mse.grid [0, i, n, m])) 1 (s (A.id, lin A.grid [j, i, n, m])) =
        .ok (s' (A.id, lin A.grid [j, i, n, m])) := by
  have hms : mse.MseOf A 0 := ⟨by rw [hA.1]; simp, by rw [hm.1, hA.1]; rfl, by rw [hm.2, hA.2]; rfl⟩
  have hB := softmax_byTiles wm wA im hms (1 : α)
  have gA := hA.grid ft fp
  refine ⟨fun k hk => hB.frame e hk, fun j i n m hj hi hn hm => ?_⟩
  have hin : InBox A.grid [j, i, n, m] := by rw [gA]; exact ⟨hj, hi, hn, hm, trivial⟩
  have := foldBuf_one (hB.tile e hin)
  rw [hms.lin_grid]
  simpa only [submitSoftmaxInplace, task1, Task1.inp, hA.tshape ft hj hi hn hm, mOf, nOf, kOf, List.take, List.drop, List.map_cons, List.map_nil, List.prod_cons, List.prod_nil,
    Nat.mul_one, List.eraseIdx_cons_zero, List.getD_cons_zero, Nat.zero_add, reduceCtorEq, if_false] using this

/-- Maxima and sums of the tiles of scores are put together. -/
theorem maxsumexp_tiles {mse A : Tensor} (hm : mse.IsPairs z t) (hA : A.IsScores z t) (wm : mse.WF) (wA : A.WF) (im : A.id ≠ mse.id) {s s' : Store α}
    (e : Exec (maxsumexpAsync A mse 0 false) s s') {i n m : Nat} (hi : i < z.S / t.S) (hn : n < z.B / t.B) (hm' : m < z.H / t.H) :
    foldBuf s ((List.range (z.S / t.S)).map (fun j => submitMaxsumexp 1 (t.S * (t.B * t.H)) t.S (A.id, lin A.grid [j, i, n, m]) (mse.id, lin mse.grid [0, i, n, m]) false))
      (s (mse.id, lin mse.grid [0, i, n, m])) = .ok (s' (mse.id, lin mse.grid [0, i, n, m])) := by
  have hms : mse.MseOf A 0 := ⟨by rw [hA.1]; simp, by rw [hm.1, hA.1]; rfl, by rw [hm.2, hA.2]; rfl⟩
  have hB := maxsumexp_byTiles (α := α) wA wm im hms false
  have gA := hA.grid ft fp
  have gm := hm.grid ft fp
  have hin : InBox mse.grid [0, i, n, m] := by rw [gm]; exact ⟨by decide, hi, hn, hm', trivial⟩
  have := hB.tile e hin
  rw [← this]
  rw [gA]
  congr 1
  refine List.map_congr_left fun j hj => ?_
  rw [List.mem_range] at hj
  simp only [List.tail_cons, List.insertIdx_zero, hA.tshape ft hj hi hn hm', mOf, nOf, kOf, List.take, List.drop, List.prod_cons, List.prod_nil,
    Nat.mul_one, List.getD_cons_zero, Nat.zero_add]

/-! ### The fused operations -/

theorem scratchAt_ok {T : Tensor} (hT : T.IsScores z t) {j i n m : Nat} (hj : j < z.S / t.S) (hi : i < z.S / t.S) (hn : n < z.B / t.B) (hm : m < z.H / t.H) :
    scratchAt T [j, i, n, m] = .ok [t.S, t.S, t.B, t.H].prod := by
  have hin : InBox T.grid [j, i, n, m] := by rw [hT.grid ft fp]; exact ⟨hj, hi, hn, hm, trivial⟩
  rw [scratchAt, Tensor.tshapeAt_ok hin, M.bind_ok, hT.tshape ft hj hi hn hm]

theorem flashMaxsumexp_byTiles (asBool : α → Bool) (ninf : α) {Q K mask mse tmp : Tensor} (hQ : Q.IsHeads z t) (hK : K.IsHeads z t) (hM : mask.IsMask z t) (hm : mse.IsPairs z t)
    (hT : tmp.IsScores z t) (iQ : Q.id ≠ mse.id) (iK : K.id ≠ mse.id) (iM : mask.id ≠ mse.id) :
    ByTiles (flashMaxsumexpAsync asBool ninf Q K mask mse tmp) mse (fun T => (List.range (z.S / t.S)).map (fun j =>
      submitFlashMaxsumexp asBool ninf t.S z.D (t.B * t.H) (K.id, lin K.grid (T.set 1 j)) (Q.id, lin Q.grid T) (mask.id, lin mask.grid [j, T.getD 1 0])
        (mse.id, lin mse.grid T) [t.S, t.S, t.B, t.H].prod)) := by
  have gm := hm.grid ft fp
  have gQ := hQ.grid ft fp
  have gK := hK.grid ft fp
  have gM := hM.grid ft fp
  refine ByTiles.of_loop _ ?_ ?_
  · simp only [flashMaxsumexpAsync, hQ.1, hQ.2]
    rw [vget_ok (by simp), M.bind_ok, vget_ok (by simp), M.bind_ok, vget_ok (by simp), M.bind_ok, vget_ok (by simp), M.bind_ok]
    refine forTasks_ok fun i hi => ?_
    have hin := mse.tindex_inBox i
    rw [Tensor.handleL_ok hi, M.bind_ok]
    rw [Tensor.lin_tindex hi]
    generalize mse.tindex i = T at hin
    rw [gm] at hin
    obtain ⟨x, i', n, m, hx, hi', hn, hm', rfl⟩ := mem_box4 (mem_box.2 hin)
    obtain rfl : x = 0 := by omega
    have inQ : InBox Q.grid [0, i', n, m] := by rw [gQ]; exact hin
    rw [Tensor.handleAt_ok inQ, M.bind_ok, vget_ok (by simp), M.bind_ok, vget_ok (by rw [gK]; simp), M.bind_ok]
    rw [List.map_eq_flatMap]
    have e1 : K.grid.getD 1 0 = z.S / t.S := by rw [gK]; rfl
    rw [e1]
    refine forTasks_ok fun j hj => ?_
    have inK : InBox K.grid [0, j, n, m] := by rw [gK]; exact ⟨by decide, hj, hn, hm', trivial⟩
    have inM : InBox mask.grid [j, i'] := by rw [gM]; exact ⟨hj, hi', trivial⟩
    simp only [List.set_cons_zero, List.set_cons_succ, List.getD_cons_succ, List.getD_cons_zero, scratchAt_ok ft fp hT hj hi' hn hm', M.bind_ok, Tensor.handleAt_ok inK,
      Tensor.handleAt_ok inM]
  · intro T hT u hu
    simp only [List.mem_map, List.mem_range] at hu
    obtain ⟨l, -, rfl⟩ := hu
    exact ⟨rfl, by simp [submitFlashMaxsumexp, iQ, iK, iM]⟩

theorem flashSoftmaxGemm_byTiles (asBool : α → Bool) (ninf : α) {Q K V mask mse dst tmp : Tensor} (hQ : Q.IsHeads z t) (hK : K.IsHeads z t) (hV : V.IsHeads z t)
    (hM : mask.IsMask z t) (hm : mse.IsPairs z t) (hd : dst.IsHeads z t) (hT : tmp.IsScores z t) (iQ : Q.id ≠ dst.id) (iK : K.id ≠ dst.id) (iV : V.id ≠ dst.id)
    (iM : mask.id ≠ dst.id) (im : mse.id ≠ dst.id) :
    ByTiles (flashSoftmaxGemmAsync asBool ninf Q K V mask mse dst tmp) dst (fun T => submitClear (dst.id, lin dst.grid T) :: (List.range (z.S / t.S)).map (fun j =>
      submitFlashSoftmaxGemm asBool ninf t.S z.D (t.B * t.H) (K.id, lin K.grid (T.set 1 j)) (Q.id, lin Q.grid T) (mask.id, lin mask.grid [j, T.getD 1 0])
        (mse.id, lin mse.grid T) (V.id, lin V.grid (T.set 1 j)) (dst.id, lin dst.grid T) [t.S, t.S, t.B, t.H].prod)) := by
  have gm := hm.grid ft fp
  have gQ := hQ.grid ft fp
  have gK := hK.grid ft fp
  have gV := hV.grid ft fp
  have gd := hd.grid ft fp
  have gM := hM.grid ft fp
  have en : mse.ntiles = dst.ntiles := by rw [Tensor.ntiles, gm, Tensor.ntiles, gd]
  have et : ∀ i, mse.tindex i = dst.tindex i := fun i => by rw [Tensor.tindex, gm, Tensor.tindex, gd]
  refine ByTiles.of_loop _ ?_ ?_
  · simp only [flashSoftmaxGemmAsync, hQ.1, hQ.2, en, et]
    rw [vget_ok (by simp), M.bind_ok, vget_ok (by simp), M.bind_ok, vget_ok (by simp), M.bind_ok, vget_ok (by simp), M.bind_ok]
    refine forTasks_ok fun i hi => ?_
    have hin := dst.tindex_inBox i
    rw [Tensor.handleL_ok (by rw [en]; exact hi), M.bind_ok]
    have el : i = lin mse.grid (dst.tindex i) := by rw [← et, Tensor.lin_tindex (by rw [en]; exact hi)]
    rw [← el]
    generalize dst.tindex i = T at hin
    rw [gd] at hin
    obtain ⟨x, i', n, m, hx, hi', hn, hm', rfl⟩ := mem_box4 (mem_box.2 hin)
    obtain rfl : x = 0 := by omega
    have inQ : InBox Q.grid [0, i', n, m] := by rw [gQ]; exact hin
    have inD : InBox dst.grid [0, i', n, m] := by rw [gd]; exact hin
    rw [Tensor.handleAt_ok inQ, M.bind_ok, Tensor.handleAt_ok inD, M.bind_ok, vget_ok (by simp), M.bind_ok, vget_ok (by rw [gK]; simp), M.bind_ok]
    rw [List.map_eq_flatMap]
    have e1 : K.grid.getD 1 0 = z.S / t.S := by rw [gK]; rfl
    rw [e1]
    rw [forTasks_ok (g := fun j => [submitFlashSoftmaxGemm asBool ninf t.S z.D (t.B * t.H) (K.id, lin K.grid ([0, i', n, m].set 1 j)) (Q.id, lin Q.grid [0, i', n, m])
      (mask.id, lin mask.grid [j, [0, i', n, m].getD 1 0]) (mse.id, i) (V.id, lin V.grid ([0, i', n, m].set 1 j)) (dst.id, lin dst.grid [0, i', n, m])
      [t.S, t.S, t.B, t.H].prod])]
    · rfl
    · intro j hj
      have inK : InBox K.grid [0, j, n, m] := by rw [gK]; exact ⟨by decide, hj, hn, hm', trivial⟩
      have inV : InBox V.grid [0, j, n, m] := by rw [gV]; exact ⟨by decide, hj, hn, hm', trivial⟩
      have inM : InBox mask.grid [j, i'] := by rw [gM]; exact ⟨hj, hi', trivial⟩
      simp only [List.set_cons_zero, List.set_cons_succ, List.getD_cons_succ, List.getD_cons_zero, scratchAt_ok ft fp hT hj hi' hn hm', M.bind_ok, Tensor.handleAt_ok inK,
        Tensor.handleAt_ok inM, Tensor.handleAt_ok inV]
  · intro T hT u hu
    rw [List.mem_cons, List.mem_map] at hu
    obtain rfl | ⟨l, -, rfl⟩ := hu
    · exact ⟨rfl, by simp [submitClear, task0]⟩
    · exact ⟨rfl, by simp [submitFlashSoftmaxGemm, iQ, iK, iM, iV, im]⟩

/-- The tiles of a product with a matrix of weights. -/
theorem gemm_heads_tiles {X A C : Tensor} (hX : X.IsHeads z t) (hA : A.IsScores z t) (hC : C.IsHeads z t) (wX : X.WF) (wA : A.WF) (wC : C.WF)
    (iX : X.id ≠ C.id) (iA : A.id ≠ C.id) {s s' : Store α} (scale : α) (tB : TransOp)
    (e : Exec (gemmAsync scale .noTrans X tB A 1 C 1 2 false) s s') :
    (∀ k : Handle, k.1 ≠ C.id → s' k = s k) ∧ ∀ i n m, i < z.S / t.S → n < z.B / t.B → m < z.H / t.H →
      foldBuf s ((List.range (z.S / t.S)).map (fun j => submitGemm .noTrans tB t.D t.S t.S (t.B * t.H) scale (X.id, lin X.grid [0, j, n, m])
        (A.id, lin A.grid (tB.sel [j, i, n, m] [i, j, n, m])) 1 (C.id, lin C.grid [0, i, n, m]) false)) (s (C.id, lin C.grid [0, i, n, m])) =
        .ok (s' (C.id, lin C.grid [0, i, n, m])) := by
  have oA : A.IsOp tB [z.S] [z.S] [z.B, z.H] [t.S] [t.S] [t.B, t.H] := by
    cases tB
    · exact ⟨rfl, rfl, rfl, hA.1, hA.2⟩
    · exact ⟨rfl, rfl, rfl, hA.1, hA.2⟩
  have hB := gemm_byTiles (α := α) (tA := .noTrans) (tB := tB) (M := [z.D]) (K := [z.S]) (N := [z.S]) (R := [z.B, z.H]) (M' := [t.D]) (K' := [t.S]) (N' := [t.S])
    (R' := [t.B, t.H]) wX wA wC ⟨rfl, rfl, rfl, hX.1, hX.2⟩ oA ⟨rfl, rfl, rfl, hC.1, hC.2⟩ (nd := 1) (bt := 2) rfl rfl iX iA scale 1 false
  have gC := hC.grid ft fp
  refine ⟨fun k hk => hB.frame e hk, fun i n m hi hn hm => ?_⟩
  have hin : InBox C.grid [0, i, n, m] := by rw [gC]; exact ⟨by decide, hi, hn, hm, trivial⟩
  have := hB.tile e hin
  have g1 : (gridOf [z.S] [t.S]).prod = z.S / t.S := by simp [gridOf, even_grid fp.zS fp.tS ft.S]
  rw [g1] at this
  rw [← this]
  congr 1
  refine List.map_congr_left fun j hj => ?_
  rw [List.mem_range] at hj
  cases tB
  all_goals
    simp only [gemmTask, gridOf, even_grid fp.zS fp.tS ft.S, unlin, Nat.mod_eq_of_lt hj, List.length_cons, List.length_nil, List.take, List.drop, opCat, List.cons_append,
      List.nil_append, Nat.reduceAdd, Nat.zero_mul, Nat.sub_zero, tileShape, even_tile ft.S hj, even_tile ft.S hi, even_tile ft.B hn, even_tile ft.H hm, ← ft.D,
      Nat.min_self, List.prod_cons, List.prod_nil, Nat.mul_one, ite_self, TransOp.sel]

end
end NNTile
