import Verif.Lib.GemmEx
import Verif.Props.C17
import Verif.Props.C58
import Verif.Props.C33
import Verif.Lib.Seq
import Verif.Lib.Fp16
/-!
# C75: `gemm_ex`, multiplication with rounded factors
-/
namespace NNTile
open Finset

/-- `C = alpha * op(tf32(A)) * op(tf32(B)) + beta * C` in exact arithmetic but for the rounding of the elements of the factors, for all shapes and tilings whose tiles can be counted by an `int`; no other
tensor is changed. If `beta = 0` nothing is assumed about the old `C`. In particular the factors are rounded exactly once, however they are cut into tiles. -/
theorem C75_gemm_ex {A B C : Tensor} {tA tB : TransOp} {nd bt : Nat} {s : Store ℝ} (hA : A.Ready s) (hB : B.Ready s) (hC : C.Ready s)
    (idA : A.id ≠ C.id) (idB : B.id ≠ C.id) {M K N R : List Nat} (hsh : GemmDims tA tB nd bt A.shape B.shape C.shape M K N R)
    (hbt : ∃ M' K' N' R', GemmDims tA tB nd bt A.basetile B.basetile C.basetile M' K' N' R') (fA : A.TilesFit) (fC : C.TilesFit)
    (tf32 : ℝ → ℝ) (alpha beta : ℝ) (redux : Bool) (x y z : List Nat → ℝ) (hx : A.Holds s x) (hy : B.Holds s y) (hz : beta ≠ 0 → C.Holds s z) :
    ∃ v, Computes (gemmExAsync true tf32 alpha tA A tB B beta C nd bt redux) s C v ∧
      ∀ I J b, InBox M I → InBox N J → InBox R b → v (I ++ J ++ b) =
        alpha * ∑ k ∈ box K, tf32 (x (opCat tA I k b)) * tf32 (y (opCat tB k J b)) + beta * z (I ++ J ++ b) := by
  obtain ⟨v, ⟨ts, u, e, hr, hv, ho, hru⟩, hval⟩ := C17_gemm (hA.roundStore tf32 C.id) (hB.roundStore tf32 C.id) (hC.roundStore tf32 C.id) idA idB hsh hbt alpha beta redux _ _ z
    (hx.roundStore tf32 idA) (hy.roundStore tf32 idB) (fun h => (C.holds_roundStore_self tf32).2 (hz h))
  refine ⟨v, ?_, hval⟩
  have hts : ∀ t ∈ ts, t.out.1 = C.id ∧ ∀ x ∈ t.reads, x.1 ≠ C.id := by
    obtain ⟨hK, hR, sA, sB, sC⟩ := hsh
    obtain ⟨M', K', N', R', hK', hR', bA, bB, bC⟩ := hbt
    have lA := hA.1.2.2
    have lB := hB.1.2.2
    rw [sA, bA, opCat_length, opCat_length] at lA
    rw [sB, bB, opCat_length, opCat_length] at lB
    have lC := hC.1.2.2
    rw [sC, bC] at lC
    simp only [List.length_append] at lC
    have e' := gemmAsync_ok hA.1 hB.1 hC.1 ⟨by omega, by omega, by omega, sA, bA⟩ ⟨by omega, by omega, by omega, sB, bB⟩ ⟨by omega, by omega, by omega, sC, bC⟩ hK hR alpha beta redux
    obtain rfl := Except.ok.inj (e.symm.trans e')
    intro t ht
    simp only [List.mem_flatMap, List.mem_singleton] at ht
    obtain ⟨_, -, _, -, rfl⟩ := ht
    simp [gemmTask, submitGemm, task2, idA, idB]
  obtain ⟨s', h1, rfl, h3⟩ := run_rounded tf32 hts hr
  refine ⟨ts.map (Task1.rounded tf32), s', ?_, h1, (C.holds_roundStore_self tf32).1 hv, h3, hC.1, fun i hi => ?_⟩
  · rw [gemmEx_map hA.1 hC.1 fA fC, e]; rfl
  · rw [← hru.2 i hi]
    simp [roundStore]

/-- Operands which do not fit are rejected. -/
theorem C75_gemm_ex_rejects {α : Type} [FP α] {A B C : Tensor} (hA : A.WF) (hB : B.WF) (hC : C.WF) (cuda : Bool) (tf32 : α → α) (tA tB : TransOp) (alpha beta : α)
    (ndim batch_ndim : Int) (redux : Bool) (h : ¬ ∃ nd bt : Nat, ndim = nd ∧ batch_ndim = bt ∧ GemmFit tA tB nd bt A B C) :
    Throws (gemmExAsync cuda tf32 alpha tA A tB B beta C ndim batch_ndim redux) := by
  simp only [gemmExAsync]
  exact (gemmCheck_check hA hB hC).throws h

/-- If no element is changed by the rounding, `gemm_ex` and `gemm` have the same result. -/
theorem C75_exact {A B C : Tensor} {tA tB : TransOp} {nd bt : Nat} {s : Store ℝ} (hA : A.Ready s) (hB : B.Ready s) (hC : C.Ready s)
    (idA : A.id ≠ C.id) (idB : B.id ≠ C.id) (fit : GemmFit tA tB nd bt A B C) (fA : A.TilesFit) (fC : C.TilesFit)
    (tf32 : ℝ → ℝ) (alpha beta : ℝ) (redux : Bool) (x y z : List Nat → ℝ) (hx : A.Holds s x) (hy : B.Holds s y) (hz : beta ≠ 0 → C.Holds s z)
    (ex : ∀ I, InBox A.shape I → tf32 (x I) = x I) (ey : ∀ I, InBox B.shape I → tf32 (y I) = y I) :
    ∃ v, Computes (gemmExAsync true tf32 alpha tA A tB B beta C nd bt redux) s C v ∧ Computes (gemmAsync alpha tA A tB B beta C nd bt redux) s C v := by
  obtain ⟨⟨M, K, N, R, hsh⟩, hbt⟩ := fit
  obtain ⟨v, h, hv⟩ := C75_gemm_ex hA hB hC idA idB hsh hbt fA fC tf32 alpha beta redux x y z hx hy hz
  obtain ⟨v', h', hv'⟩ := C17_gemm hA hB hC idA idB hsh hbt alpha beta redux x y z hx hy hz
  refine ⟨v, h, h'.congr fun L hL => ?_⟩
  obtain ⟨-, -, sA, sB, sC⟩ := hsh
  rw [sC] at hL
  obtain ⟨u, b, rfl, hu, hb⟩ := hL.exists_split
  obtain ⟨I, J, rfl, hI, hJ⟩ := hu.exists_split
  rw [hv I J b hI hJ hb, hv' I J b hI hJ hb]
  unfold gemmVal
  congr 2
  refine sum_congr rfl fun k hk => ?_
  have hk := mem_box.1 hk
  rw [ex _ (by rw [sA]; exact hI.opCat tA hk hb), ey _ (by rw [sB]; exact hk.opCat tB hJ hb)]

/-- Without CUDA `gemm_ex` always throws an exception. -/
theorem C75_no_cuda {α : Type} [FP α] {A B C : Tensor} (hA : A.WF) (hB : B.WF) (hC : C.WF) (tf32 : α → α) (tA tB : TransOp) (alpha beta : α)
    (ndim batch_ndim : Int) (redux : Bool) : Throws (gemmExAsync false tf32 alpha tA A tB B beta C ndim batch_ndim redux) := by
  by_cases h : ∃ nd bt : Nat, ndim = nd ∧ batch_ndim = bt ∧ GemmFit tA tB nd bt A B C
  swap
  · exact C75_gemm_ex_rejects hA hB hC false tf32 tA tB alpha beta ndim batch_ndim redux h
  have hchk := (gemmCheck_check hA hB hC (tA := tA) (tB := tB) (ndim := ndim) (batch_ndim := batch_ndim)).ok h
  obtain ⟨nd, bt, rfl, rfl, ⟨P, K, N, R, hK, hR, sA, sB, sC⟩, -⟩ := h
  have lA : A.ndim = P.length + K.length + R.length := by rw [Tensor.ndim, sA, opCat_length]
  have lC : C.ndim = P.length + N.length + R.length := by rw [Tensor.ndim, sC]; simp; omega
  have hp := C.grid_pos
  have h1 : 0 < msCols C.grid (C.ndim - bt) := Pos.prod fun x hx => hp x (List.mem_of_mem_drop hx)
  have h3 : ∀ d, 0 < msRows C.grid d := fun d => Pos.prod fun x hx => hp x (List.mem_of_mem_take hx)
  have h2 : 0 < msCols C.grid (A.ndim - bt - nd) / msCols C.grid (C.ndim - bt) := by
    refine Nat.div_pos ?_ h1
    have e : C.ndim - bt = (A.ndim - bt - nd) + N.length := by omega
    rw [e, msCols, msCols, ← List.drop_drop]
    exact msCols_le (fun x hx => hp x (List.mem_of_mem_drop hx)) _
  unfold gemmExAsync
  rw [hchk, M.bind_ok]
  simp only [Int.toNat_natCast]
  refine forTasks_throws h1 (forTasks_throws h2 (forTasks_throws (h3 _) ?_))
  simp only [Nat.zero_mul, Nat.mul_zero, Nat.add_zero, Tensor.handleL, Tensor.ntiles_pos, if_true, M.bind_ok]
  refine Throws.bind ⟨"Error in gemm_ex task submission", ?_⟩
  unfold submitGemmEx
  rw [throwIf_neg (by simp), M.bind_ok, throwIf_neg (by simp), M.bind_ok, throwIf_neg (by simp), M.bind_ok, throwIf_pos rfl]
  rfl

/-- `gemm_ex` of single tiles, with at least one contracted dimension, does what `gemm_ex` of tensors of one tile does. -/
theorem C75_tile {α : Type} [FP α] {A B C : Tile} (hA : A.WF) (hC : C.WF) (cuda : Bool) (tf32 : α → α) (ta tb : TransOp) (alpha beta : α) (nd bn : Int) (hnd : nd ≠ 0) :
    SameOutcome (tileGemmEx cuda tf32 alpha ta A tb B beta C nd bn) (gemmExAsync cuda tf32 alpha ta A.one tb B.one beta C.one nd bn false) := by
  refine ((sim_gemmCheck ta A tb B C nd bn hnd).seq ?_).same
  rw [Tile.one_grid, Tile.one_grid]
  dsimp only
  simp only [msRows_one, msCols_one, Nat.div_self Nat.one_pos]
  rw [show ta.sel 1 1 = 1 by cases ta <;> rfl]
  rw [forTasks_one, forTasks_one, forTasks_one]
  simp only [Nat.mul_one, Nat.mul_zero, Nat.add_zero, Tile.one_handleL, M.bind_ok, Tile.one_tshapeL hA, Tile.one_tshapeL hC, Nat.sub_self, forTasks,
    Tile.one_ndim]
  exact SimM.refl _

/-- The hypotheses about the sizes of the tiles are needed: the number of matrices in a batch is not checked. A task with `2^31` matrices of one element each is submitted, but the number does not fit the
`int` passed to cuBLAS. -/
theorem C75_batch_unchecked {α : Type} [FP α] (tf32 : α → α) (tA tB : TransOp) (alpha beta : α) (A B C : Handle) (redux : Bool) :
    ∃ t, submitGemmEx true tf32 tA tB 1 1 1 (2^31) alpha A B beta C redux = .ok t ∧ ∀ a b c, IsUB (t.fn [a, b] c) := by
  refine ⟨_, rfl, fun a b c => ⟨"batchCount does not fit int", ?_⟩⟩
  show gemmExKernel tf32 tA tB 1 1 1 (2^31) alpha a b beta c = _
  unfold gemmExKernel
  rw [if_neg (by omega), if_pos (le_refl _)]

/-- `gemm_ex` without batch dimensions with an explicit result. -/
theorem gemmEx_nobatch {A B C : Tensor} {tA tB : TransOp} {nd : Int} {s : Store ℝ} (hA : A.Ready s) (hB : B.Ready s) (hC : C.Ready s)
    (idA : A.id ≠ C.id) (idB : B.id ≠ C.id) {M K N : List Nat} (hnd : nd = K.length) (sA : A.shape = opCat tA M K [])
    (sB : B.shape = opCat tB K N []) (sC : C.shape = M ++ N)
    (hbt : ∃ M' K' N' : List Nat, K'.length = K.length ∧ A.basetile = opCat tA M' K' [] ∧ B.basetile = opCat tB K' N' [] ∧ C.basetile = M' ++ N')
    (alpha beta : ℝ) (redux : Bool) (x y z : List Nat → ℝ) (hx : A.Holds s x) (hy : B.Holds s y) (hz : beta ≠ 0 → C.Holds s z)
    (fA : A.TilesFit) (fC : C.TilesFit) (tf32 : ℝ → ℝ) :
    Computes (gemmExAsync true tf32 alpha tA A tB B beta C nd 0 redux) s C (fun Z =>
      alpha * ∑ k ∈ box K, tf32 (x (opCat tA (Z.take M.length) k [])) * tf32 (y (opCat tB k (Z.drop M.length) [])) + beta * z Z) := by
  obtain ⟨M', K', N', hK, bA, bB, bC⟩ := hbt
  subst hnd
  obtain ⟨v, h, hv⟩ := C75_gemm_ex (tA := tA) (tB := tB) (nd := K.length) (bt := 0) hA hB hC idA idB (M := M) (K := K) (N := N) (R := [])
    ⟨rfl, rfl, sA, sB, by simpa using sC⟩ ⟨M', K', N', [], hK, rfl, bA, bB, by simpa using bC⟩ fA fC tf32 alpha beta redux x y z hx hy hz
  refine h.congr fun Z hZ => ?_
  rw [sC] at hZ
  have hl : (Z.take M.length).length = M.length := by
    have := hZ.length; simp only [List.length_append] at this
    simp only [List.length_take]; omega
  have hZ' : InBox (M ++ N) (Z.take M.length ++ Z.drop M.length) := by rwa [List.take_append_drop]
  rw [InBox_append hl] at hZ'
  have := hv (Z.take M.length) (Z.drop M.length) [] hZ'.1 hZ'.2 trivial
  simpa [List.take_append_drop] using this

/-- A linear layer with `fp32_fast_tf32=True` computes the linear function of the rounded input and weights; the bias is not rounded. -/
theorem C75_linear {l : Linear} {M K N : List Nat} (fit : l.Fits M K N) {s : Store ℝ} (hx : l.x.value.Ready s) (hw : l.w.value.Ready s)
    (hy : l.y.value.Ready s) (hb : ∀ b ∈ l.b, b.value.Ready s ∧ b.value.id ≠ l.y.value.id)
    (idx : l.x.value.id ≠ l.y.value.id) (idw : l.w.value.id ≠ l.y.value.id) (x w b : List Nat → ℝ) (vx : l.x.value.Holds s x)
    (vw : l.w.value.Holds s w) (vb : ∀ m ∈ l.b, m.value.Holds s b)
    (fx : l.x.value.TilesFit) (fw : l.w.value.TilesFit) (fy : l.y.value.TilesFit) (tf32 : ℝ → ℝ) :
    Computes (l.forwardFastAsync true tf32) s l.y.value (linearOut l.side l.transX M.length K (fun I => tf32 (x I)) (fun I => tf32 (w I)) (if l.b.isSome then b else 0)) := by
  obtain ⟨M', K', N', hK, ht, hbt⟩ := fit.tile
  have hsh := fit.shape
  have hfb := fit.bias
  have hnd := fit.ndim
  obtain ⟨side, tx, ⟨x_, xg, xr⟩, ⟨y_, yg, yr⟩, ⟨w_, wg, wr⟩, nd, bo, redux⟩ := l
  simp only at *
  cases side with
  | L =>
    obtain ⟨sx, sw, sy⟩ := hsh
    obtain ⟨bx, bw, by_⟩ := ht
    have hg := gemmEx_nobatch (tA := tx) (tB := .noTrans) hx hw hy idx idw hnd sx (by simpa using sw) sy
      ⟨M', K', N', hK, bx, by simpa using bw, by_⟩ 1 0 redux x w (fun _ => 0) vx vw (by simp) fx fy tf32
    simp only [Linear.forwardFastAsync]
    refine hg.then fun s1 hc hv hr => ?_
    cases bo with
    | none =>
      refine (Computes.skip hv hr).then fun s2 _ hv hr => (Computes.nil hv hr).congr fun Z _ => ?_
      simp [linearOut]
    | some b_ =>
      obtain ⟨hN, hbs, -⟩ := hfb b_ rfl
      obtain ⟨hbb, -⟩ := hbt b_ rfl
      obtain ⟨hbr, hbi⟩ := hb b_ rfl
      obtain ⟨n, rfl⟩ := List.length_eq_one_iff.1 hN
      have hN' : N'.length = 1 := by
        have := hbr.1.2.2
        rw [hbb, hbs] at this
        simpa [Side.biasDim] using this
      obtain ⟨n', rfl⟩ := List.length_eq_one_iff.1 hN'
      have hM' : M'.length = M.length := by
        have := hy.1.2.2
        rw [by_, sy] at this
        simpa using this
      have hf : b_.value.FiberOf y_ M.length 0 := bias_fiber_last sy by_ hM' hbs hbb
      have e : ((y_.ndim : Int) - 1) = (M.length : Int) := by simp [Tensor.ndim, sy]
      have := C13_add_fiber_partial (hc.ready hbr (by simpa using hbi)) hr hbi hf 1 1 (by simp) b _ (hc.holds (vb b_ rfl) (by simpa using hbi)) (fun _ => hv)
      rw [e]
      refine this.then fun s2 _ hv hr => (Computes.nil hv hr).congr fun Z hZ => ?_
      have hZl := hZ.length
      simp only [sy, List.length_append, List.length_singleton] at hZl
      have e1 : fiberIdx M.length 0 Z = Z.drop M.length := by
        rw [fiberIdx, List.drop_eq_getElem_cons (show M.length < Z.length by omega)]
        simp [hZl, List.getD_eq_getElem?_getD]
      simp [linearOut, e1]
  | R =>
    obtain ⟨sw, sx, sy⟩ := hsh
    obtain ⟨bw, bx, by_⟩ := ht
    have hg := gemmEx_nobatch (tA := .noTrans) (tB := tx) hw hx hy idw idx hnd (by simpa using sw) sx sy
      ⟨M', K', N', hK, by simpa using bw, bx, by_⟩ 1 0 redux w x (fun _ => 0) vw vx (by simp) fw fy tf32
    simp only [Linear.forwardFastAsync]
    refine hg.then fun s1 hc hv hr => ?_
    cases bo with
    | none =>
      refine (Computes.skip hv hr).then fun s2 _ hv hr => (Computes.nil hv hr).congr fun Z _ => ?_
      simp [linearOut]
    | some b_ =>
      obtain ⟨hN, hbs, -⟩ := hfb b_ rfl
      obtain ⟨hbb, -⟩ := hbt b_ rfl
      obtain ⟨hbr, hbi⟩ := hb b_ rfl
      obtain ⟨n, rfl⟩ := List.length_eq_one_iff.1 hN
      have hN' : M'.length = 1 := by
        have := hbr.1.2.2
        rw [hbb, hbs] at this
        simpa [Side.biasDim] using this
      obtain ⟨n', rfl⟩ := List.length_eq_one_iff.1 hN'
      have hM' : N'.length = N.length := by
        have := hy.1.2.2
        rw [by_, sy] at this
        simpa using this
      have hf : b_.value.FiberOf y_ 0 0 := bias_fiber_first sy by_ hM' hbs hbb
      have := C13_add_fiber_partial (hc.ready hbr (by simpa using hbi)) hr hbi hf 1 1 (by simp) b _ (hc.holds (vb b_ rfl) (by simpa using hbi)) (fun _ => hv)
      refine this.then fun s2 _ hv hr => (Computes.nil hv hr).congr fun Z hZ => ?_
      have hZl := hZ.length
      simp only [sy, List.length_append, List.length_singleton] at hZl
      have e1 : fiberIdx 0 0 Z = Z.take 1 := by
        cases Z with
        | nil => simp only [List.length_nil] at hZl; omega
        | cons z Z => simp [fiberIdx]
      simp [linearOut, e1]

/-! ### Examples -/

/-- Three by seven tiles; rounding to integers. -/
example : ∃ (A B C : Tensor) (s : Store ℝ) (v : List Nat → ℝ), A.ntiles = 18 ∧ Computes (gemmExAsync true (fun x => (⌊x⌋ : ℝ)) 1 .noTrans A .trans B 0 C 1 1 false) s C v := by
  obtain ⟨s, h1, h2, h3⟩ := exists_store3 (A := ⟨0, [5,7,3], [2,3,2]⟩) (B := ⟨1, [4,7,3], [3,3,2]⟩) (C := ⟨2, [5,4,3], [2,3,2]⟩)
    (fun I => (lin [5,7,3] I : ℝ)) (fun I => (lin [4,7,3] I : ℝ)) (fun _ => (1 : ℝ)) (by decide) (by decide) (by decide) (by decide) (by decide) (by decide)
  obtain ⟨v, h, -⟩ := C75_gemm_ex h1.1 h2.1 h3.1 (by decide) (by decide) (M := [5]) (K := [7]) (N := [4]) (R := [3]) ⟨rfl, rfl, rfl, rfl, rfl⟩
    ⟨[2], [3], [3], [2], rfl, rfl, rfl, rfl, rfl⟩ (tA := .noTrans) (tB := .trans) (by unfold Tensor.TilesFit; decide) (by unfold Tensor.TilesFit; decide) (fun x => (⌊x⌋ : ℝ)) 1 0 false _ _ _ h1.2 h2.2 (fun _ => h3.2)
  exact ⟨_, _, _, s, v, by decide, h⟩

/-- **Which tasks are submitted.** Exactly those on a machine with a CUDA device whose three sizes fit `int`. -/
theorem C75_submitted {α : Type} [FP α] {cuda : Bool} {tf32 : α → α} {tA tB : TransOp} {m n k batch : Nat} {alpha beta : α} {A B C : Handle} {redux : Bool} :
    (∃ t, submitGemmEx cuda tf32 tA tB m n k batch alpha A B beta C redux = .ok t) ↔ cuda = true ∧ m < 2^31 ∧ n < 2^31 ∧ k < 2^31 := by
  constructor
  · rintro ⟨t, h⟩
    by_contra hc
    have ht : Throws (submitGemmEx cuda tf32 tA tB m n k batch alpha A B beta C redux) := by
      cases cuda
      · exact throws_step fun _ => throws_step fun _ => throws_step fun _ => throws_pos rfl
      · by_cases h1 : 2^31 ≤ m
        · exact throws_pos ⟨rfl, h1⟩
        · refine throws_step fun _ => ?_
          by_cases h2 : 2^31 ≤ n
          · exact throws_pos ⟨rfl, h2⟩
          · refine throws_step fun _ => ?_
            by_cases h3 : 2^31 ≤ k
            · exact throws_pos ⟨rfl, h3⟩
            · exact absurd ⟨rfl, by omega, by omega, by omega⟩ hc
    obtain ⟨e, he⟩ := ht
    rw [h] at he
    cases he
  · rintro ⟨rfl, h1, h2, h3⟩
    unfold submitGemmEx
    rw [throwIf_neg (by omega), M.bind_ok, throwIf_neg (by omega), M.bind_ok, throwIf_neg (by omega), M.bind_ok, throwIf_neg (by simp), M.bind_ok]
    exact ⟨_, rfl⟩

end NNTile
