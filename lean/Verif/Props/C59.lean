import Verif.Props.C58
import Verif.Lib.Nrm2
/-!
# C59: every operation on tiles does the same as the operation on tensors of one tile

This is false: `sqrt`, `gelutanh` and `mask_scalar` of tiles do not check the shapes, `sumnorm` of tiles does not clear its output, `gemm` of tiles
refuses to multiply without a contracted dimension and `nrm2` wants another temporary tile.
-/
namespace NNTile
open Finset
section
variable {α : Type}

/-! ### What holds -/

theorem checkSame_one {A B : Tile} (h : A.shape = B.shape) : checkSame A.one B.one = .ok () := by
  unfold checkSame
  rw [Tile.one_ndim, Tile.one_ndim, throwIf_neg (by simp [Tile.ndim, h]), M.bind_ok]
  simp only [Tile.one_shape, Tile.one_basetile, h]
  induction B.shape with
  | nil => rfl
  | cons n S ih => simp only [checkDims, throwIf_neg (not_not.2 (Eq.refl n)), M.bind_ok, ih]

/-- `sqrt` of a tile into a tile of the same shape. Missing: other shapes, `C59_sqrt_refuted`. -/
theorem C59_sqrt_partial [FP α] {src dst : Tile} (hs : src.WF) (h : src.shape = dst.shape) :
    SameOutcome (α := α) (tileSqrt src dst) (sqrtAsync src.one dst.one) := by
  refine (SimM.of_eq ?_).same
  rw [sqrtAsync, checkSame_one h.symm, M.bind_ok, loop1_one hs]
  rfl

/-- `gelutanh` of a tile into a tile of the same shape. Missing: other shapes, `C59_gelutanh_refuted`. -/
theorem C59_gelutanh_partial [FP α] {src dst : Tile} (hs : src.WF) (h : src.shape = dst.shape) :
    SameOutcome (α := α) (tileGelutanh src dst) (gelutanhAsync src.one dst.one) := by
  refine (SimM.of_eq ?_).same
  rw [gelutanhAsync, checkSame_one h.symm, M.bind_ok, loop1_one hs]
  rfl

/-- `mask_scalar` of tiles is the tensor operation with one batch dimension if the mask has the shape of the other dimensions. Missing: other shapes,
`C59_mask_scalar_refuted`. -/
theorem C59_mask_scalar_partial {mask A : Tile} (hA : A.WF) (n : Nat) (h : A.shape = mask.shape ++ [n]) (asBool : α → Bool) (val : α) :
    SameOutcome (tileMaskScalar asBool mask val A) (maskScalarAsync asBool mask.one val A.one 1) := by
  have hn : A.ndim = mask.ndim + 1 := by simp [Tile.ndim, h]
  have hc : forCheck mask.one.ndim (fun i => checkPair A.one mask.one i i) = .ok () := by
    refine forN_eq (fun _ => ()) rfl (fun i hi => ?_)
    have hi : i < mask.shape.length := hi
    have e1 : A.shape[i]? = some mask.shape[i] := by rw [h, List.getElem?_append_left hi, List.getElem?_eq_getElem hi]
    have e2 : mask.shape[i]? = some mask.shape[i] := List.getElem?_eq_getElem hi
    unfold checkPair vget
    simp only [Tile.one_shape, Tile.one_basetile, e1, e2, M.bind_ok]
    rw [throwIf_neg (not_not.2 rfl), throwIf_neg (not_not.2 rfl)]
    rfl
  refine (SimM.of_eq ?_).same
  unfold tileMaskScalar maskScalarAsync
  rw [throwIf_neg (by simp only [Tile.one_ndim]; omega), M.bind_ok, if_neg (by omega)]
  dsimp only
  rw [hc, M.bind_ok, Tile.one_ntiles, forTasks_one, Tile.one_handleL, M.bind_ok, Tile.one_tindex, Tile.one_ndim]
  have e3 : vslice (List.replicate A.ndim 0) 0 mask.ndim = .ok (List.replicate mask.ndim 0) := by
    rw [vslice, if_pos (by simp; omega), List.drop_zero, List.take_replicate, Nat.min_eq_left (by omega)]
  have e4 : vget A.shape (A.ndim - 1) = .ok n := by
    unfold vget
    rw [h, show A.ndim - 1 = mask.shape.length by rw [hn]; rfl, List.getElem?_append_right (by omega)]
    simp
  rw [e3, M.bind_ok, Tile.one_handleAt, M.bind_ok, Tile.one_tshapeL hA, e4, M.bind_ok]
  have e5 : (A.shape.drop mask.ndim).prod = n := by rw [h, Tile.ndim, List.drop_left]; simp
  rw [e5, show A.ndim - 1 = mask.ndim by omega]
  rfl

/-- `sumnorm` of tiles after clearing the output is the tensor operation. Missing: without clearing, `C59_sumnorm_refuted`. -/
theorem C59_sumnorm_partial [FP α] {src dst : Tile} (hs : src.WF) (axis : Int) :
    SameOutcome (α := α) (do
      let c ← tileClear dst
      let t ← tileSumnorm src dst axis
      .ok (c ++ t)) (sumnormAsync src.one dst.one axis) := by
  refine SimM.same ?_
  unfold tileClear tileSumnorm sumnormAsync
  rw [M.bind_ok]
  simp only [bind_assoc]
  refine SimM.check Iff.rfl (fun hn => SimM.check Iff.rfl (fun _ => SimM.check Iff.rfl (fun h0 => SimM.check Iff.rfl (fun h1 =>
    sim_head _ ((sim_checkMse ..).seq ?_)))))
  have hn : src.ndim = dst.ndim := not_not.1 hn
  have ha : axis.toNat < src.ndim := by have h1 : ¬ axis ≥ (src.ndim : Int) := h1; omega
  rw [Tile.one_ntiles, forTasks_one, Tile.one_handleL, M.bind_ok, Tile.one_vgrid ha]
  simp only [M.bind_ok]
  rw [forTasks_one, Tile.one_tindex, mseTileIndex_zero (hn ▸ ha), ← hn]
  rw [Tile.one_handleAt, M.bind_ok, Tile.one_tshapeAt hs, M.bind_ok]
  exact SimM.refl _

/-- `nrm2` of tiles computes what the tensor operation computes (`C16_nrm2`), in exact arithmetic. Missing: the two functions take temporaries of different shapes,
`C59_nrm2_refuted`. -/
theorem C59_nrm2_partial {src dst tmp : Tile} {s : Store ℝ} (h1 : src.id ≠ dst.id) (h2 : src.id ≠ tmp.id) (h3 : dst.id ≠ tmp.id) (hd : dst.shape = [])
    (ht : tmp.shape = []) (x : Nat → ℝ) (y alpha beta : ℝ) (hs : (s src.handle).size = src.nelems)
    (hx : ∀ j, j < src.nelems → (s src.handle).data j = some (x j)) (hds : (s dst.handle).size = 1) (hy : beta ≠ 0 → (s dst.handle).data 0 = some y)
    (hts : (s tmp.handle).size = 1) :
    ∃ tasks s', tileNrm2 alpha src beta dst tmp = .ok tasks ∧ runAll1 tasks s = .ok s' ∧
      (s' dst.handle).data 0 = some (Real.sqrt ((beta * y) ^ 2 + alpha ^ 2 * ∑ j ∈ range src.nelems, x j ^ 2)) ∧ OnlyChanged [dst.id, tmp.id] s s' := by
  have n1 : dst.handle ≠ src.handle := by simp [Tile.handle, Ne.symm h1]
  have n2 : tmp.handle ≠ src.handle := by simp [Tile.handle, Ne.symm h2]
  have n3 : dst.handle ≠ tmp.handle := by simp [Tile.handle, h3]
  have hq : 0 ≤ ∑ j ∈ range src.nelems, x j ^ 2 := sum_nonneg (fun _ _ => sq_nonneg _)
  have hch : ∀ (T : Tile) (b : Buf ℝ) (s' : Store ℝ), T.id ∈ [dst.id, tmp.id] → OnlyChanged [dst.id, tmp.id] s s' →
      OnlyChanged [dst.id, tmp.id] s (fun k => if k = T.handle then b else s' k) := by
    intro T b s' hT h k hk
    show (if k = T.handle then b else s' k) = s k
    rw [if_neg (fun e => hk (by rw [e]; exact hT))]
    exact h k hk
  have nd : dst.nelems = 1 := by simp [Tile.nelems, hd]
  unfold tileNrm2
  rw [throwIf_neg (by simp [Tile.ndim, hd]), M.bind_ok, throwIf_neg (by simp [Tile.ndim, ht]), M.bind_ok]
  by_cases hb : beta = 0
  · subst hb
    simp only [eqb_real, if_true]
    by_cases ha : alpha = 0
    · subst ha
      simp only [if_true]
      have r : (submitClear (α := ℝ) dst.handle).fn ((submitClear (α := ℝ) dst.handle).reads.map s) ((submitClear (α := ℝ) dst.handle).inp (s dst.handle)) =
          .ok ⟨1, fun k => if k < 1 then some 0 else none⟩ := by
        simp [submitClear, task0, clearKernel, Task1.inp, Buf.undef, hds]
      refine ⟨_, _, rfl, runAll1_cons_ok (t := submitClear dst.handle) (ts := []) (by simp [submitClear, task0]) r, ?_, hch dst _ s (by simp) (fun _ _ => rfl)⟩
      simp [submitClear, task0]
    · simp only [ha, if_false]
      have r : (submitNrm2 src.nelems src.handle dst.handle : Task1 ℝ).fn ((submitNrm2 src.nelems src.handle dst.handle : Task1 ℝ).reads.map s)
          ((submitNrm2 src.nelems src.handle dst.handle : Task1 ℝ).inp (s dst.handle)) =
          .ok ((Buf.undef 1).put 0 (Real.sqrt (∑ j ∈ range src.nelems, x j ^ 2))) := by
        show nrm2Kernel src.nelems (s src.handle) (Buf.undef (s dst.handle).size) = _
        rw [hds]
        exact nrm2_run (by simp) hs hx
      by_cases ha1 : alpha = 1
      · subst ha1
        simp only [if_true]
        refine ⟨_, _, rfl, runAll1_cons_ok (t := submitNrm2 src.nelems src.handle dst.handle) (ts := []) (by simp [submitNrm2, task1, n1]) r, ?_,
          hch dst _ s (by simp) (fun _ _ => rfl)⟩
        simp [submitNrm2, task1, Buf.put]
      · simp only [ha1, if_false]
        refine ⟨_, _, rfl, (runAll1_cons_ok (t := submitNrm2 src.nelems src.handle dst.handle)
            (ts := [submitScalInplace (FP.fabs alpha) (dst.nelems : Int) dst.handle]) (by simp [submitNrm2, task1, n1]) r).trans
          (runAll1_cons_ok (t := submitScalInplace (FP.fabs alpha) (dst.nelems : Int) dst.handle) (ts := []) (by simp [submitScalInplace, task0])
            (b' := ((Buf.undef 1).put 0 (Real.sqrt (∑ j ∈ range src.nelems, x j ^ 2))).put 0 (|alpha| * Real.sqrt (∑ j ∈ range src.nelems, x j ^ 2))) ?_), ?_,
          hch dst _ _ (by simp) (hch dst _ s (by simp) (fun _ _ => rfl))⟩
        · show scalInplaceKernel (dst.nelems : Int) (FP.fabs alpha) (if dst.handle = dst.handle then _ else _) = _
          rw [if_pos rfl, nd]
          simp only [scalInplaceKernel, Nat.cast_one, Int.toNat_one, forN, M.bind_ok, fabs_real]
          rw [Buf.rd_ok (v := Real.sqrt (∑ j ∈ range src.nelems, x j ^ 2)) (by simp [Buf.put]) (by simp [Buf.put]), M.bind_ok, Buf.wr_put (by simp [Buf.put])]
        · show (if dst.handle = dst.handle then _ else _ : Buf ℝ).data 0 = _
          rw [if_pos rfl]
          simp only [Buf.put, if_true]
          rw [zero_mul, zero_pow two_ne_zero, zero_add, Real.sqrt_mul (sq_nonneg _), Real.sqrt_sq_eq_abs]
  · simp only [eqb_real, hb, if_false]
    refine ⟨_, _, rfl, (runAll1_cons_ok (t := submitNrm2 src.nelems src.handle tmp.handle) (ts := [submitHypot 1 alpha tmp.handle beta dst.handle])
        (by simp [submitNrm2, task1, n2]) (b' := (Buf.undef 1).put 0 (Real.sqrt (∑ j ∈ range src.nelems, x j ^ 2))) ?_).trans
      (runAll1_cons_ok (t := submitHypot 1 alpha tmp.handle beta dst.handle) (ts := []) (by simp [submitHypot, task1, n3])
        (b' := (s dst.handle).put 0 (Real.sqrt ((beta * y) ^ 2 + alpha ^ 2 * (Real.sqrt (∑ j ∈ range src.nelems, x j ^ 2)) ^ 2))) ?_), ?_,
      hch dst _ _ (by simp) (hch tmp _ s (by simp) (fun _ _ => rfl))⟩
    · show nrm2Kernel src.nelems (s src.handle) (Buf.undef (s tmp.handle).size) = _
      rw [hts]
      exact nrm2_run (by simp) hs hx
    · have hm : (submitHypot 1 alpha tmp.handle beta dst.handle : Task1 ℝ).mode = .RW := by
        simp [submitHypot, task1, hb]
      have hi : ∀ b : Buf ℝ, (submitHypot 1 alpha tmp.handle beta dst.handle : Task1 ℝ).inp b = b := by
        intro b; simp [Task1.inp, hm]
      rw [hi]
      show hypotKernel 1 alpha (if tmp.handle = tmp.handle then _ else _) beta (if dst.handle = tmp.handle then _ else s dst.handle) = _
      rw [if_pos rfl, if_neg n3]
      exact hypot1_run (by rw [hds]; omega) (by simp [Buf.put]) (by simp [Buf.put]) (fun _ => hy hb)
    · show (if dst.handle = dst.handle then _ else _ : Buf ℝ).data 0 = _
      rw [if_pos rfl]
      simp only [Buf.put, if_true]
      rw [Real.sq_sqrt hq]

end

/-! ### What does not hold -/

/-- A store with a tile of two elements (identity 0) and tiles of one element. -/
private noncomputable def st : Store ℝ := fun h => ⟨if h.1 = 0 then 2 else 1, fun _ => some 1⟩

/-- `sqrt` of a tile of two elements into a tile of one element: the tensor operation throws, the tile operation writes out of bounds. -/
theorem C59_sqrt_refuted : ∃ (src dst : Tile) (s : Store ℝ), src.WF ∧ dst.WF ∧ src.one.Alloc s ∧ src.one.Defined s ∧ dst.one.Alloc s ∧
    Throws (sqrtAsync (α := ℝ) src.one dst.one) ∧ ∃ tasks, tileSqrt src dst = .ok tasks ∧ IsUB (runAll1 tasks s) := by
  refine ⟨⟨0, [2]⟩, ⟨1, [1]⟩, st, by simp [Tile.WF], by simp [Tile.WF], ?_, ?_, ?_, ?_, _, rfl, ?_⟩
  · intro i hi; simp at hi; subst hi; rw [Tile.one_tshapeL (by simp [Tile.WF])]; simp [st, Tile.one]
  · intro I _; exact ⟨1, rfl⟩
  · intro i hi; simp at hi; subst hi; rw [Tile.one_tshapeL (by simp [Tile.WF])]; simp [st, Tile.one]
  · simp [sqrtAsync, checkSame, checkDims, Tile.one, Tensor.ndim, throwIf, Throws]
  · simp [runAll1, runAll, Task1.toTask, Task.exec, Task.outs, submitSqrt, task1, sqrtKernel, Tile.handle, Tile.nelems, forN, Buf.rd, Buf.wr, Buf.undef, st,
      Store.view, IsUB]

/-- The same for `gelutanh`. -/
theorem C59_gelutanh_refuted : ∃ (src dst : Tile) (s : Store ℝ), src.WF ∧ dst.WF ∧ src.one.Alloc s ∧ src.one.Defined s ∧ dst.one.Alloc s ∧
    Throws (gelutanhAsync (α := ℝ) src.one dst.one) ∧ ∃ tasks, tileGelutanh src dst = .ok tasks ∧ IsUB (runAll1 tasks s) := by
  refine ⟨⟨0, [2]⟩, ⟨1, [1]⟩, st, by simp [Tile.WF], by simp [Tile.WF], ?_, ?_, ?_, ?_, _, rfl, ?_⟩
  · intro i hi; simp at hi; subst hi; rw [Tile.one_tshapeL (by simp [Tile.WF])]; simp [st, Tile.one]
  · intro I _; exact ⟨1, rfl⟩
  · intro i hi; simp at hi; subst hi; rw [Tile.one_tshapeL (by simp [Tile.WF])]; simp [st, Tile.one]
  · simp [gelutanhAsync, checkSame, checkDims, Tile.one, Tensor.ndim, throwIf, Throws]
  · simp [runAll1, runAll, Task1.toTask, Task.exec, Task.outs, submitGelutanh, task1, gelutanhKernel, Tile.handle, Tile.nelems, forN, Buf.rd, Buf.wr, Buf.undef, st,
      Store.view, IsUB]

/-- `mask_scalar` of tiles for a scalar tile has undefined behaviour, and for a mask that is too small it reads out of bounds; the tensor operation
throws or succeeds. -/
theorem C59_mask_scalar_refuted :
    (∃ (mask A : Tile), mask.WF ∧ A.WF ∧ IsUB (tileMaskScalar (fun x : ℝ => decide (x ≠ 0)) mask 0 A) ∧
      (∃ t, maskScalarAsync (fun x : ℝ => decide (x ≠ 0)) mask.one 0 A.one 0 = .ok t)) ∧
    ∃ (mask A : Tile) (s : Store ℝ), mask.WF ∧ A.WF ∧ mask.one.Alloc s ∧ A.one.Alloc s ∧ mask.one.Defined s ∧ A.one.Defined s ∧
      (∀ b, Throws (maskScalarAsync (fun x : ℝ => decide (x ≠ 0)) mask.one 0 A.one b)) ∧
      ∃ tasks, tileMaskScalar (fun x : ℝ => decide (x ≠ 0)) mask 0 A = .ok tasks ∧ IsUB (runAll1 tasks s) := by
  refine ⟨⟨⟨0, []⟩, ⟨1, []⟩, by simp [Tile.WF], by simp [Tile.WF], ⟨_, rfl⟩, _, rfl⟩, ⟨1, [1]⟩, ⟨0, [2, 1]⟩, st, by simp [Tile.WF], by simp [Tile.WF], ?_, ?_, ?_, ?_, ?_, _,
    rfl, ?_⟩
  · intro i hi; simp at hi; subst hi; rw [Tile.one_tshapeL (by simp [Tile.WF])]; simp [st, Tile.one]
  · intro i hi; simp at hi; subst hi; rw [Tile.one_tshapeL (by simp [Tile.WF])]; simp [st, Tile.one]
  · intro I _; exact ⟨1, rfl⟩
  · intro I _; exact ⟨1, rfl⟩
  · intro b
    refine throws_step (fun _ => ?_)
    simp [forCheck, forN, checkPair, vget, Tile.one, Tensor.ndim, throwIf, Throws]
  · simp [runAll1, runAll, Task1.toTask, Task.exec, Task.outs, submitMaskScalar, task1, maskScalarKernel, Tile.handle, msRows, Tile.ndim, forN, Buf.rd, Buf.wr, st,
      Store.view, IsUB]

/-- `sumnorm` of tiles adds to the old contents of the output, which the tensor operation replaces. -/
theorem C59_sumnorm_refuted : ∃ (src dst : Tile), src.WF ∧ dst.WF ∧ ¬ SameOutcome (α := ℝ) (tileSumnorm src dst 0) (sumnormAsync src.one dst.one 0) := by
  refine ⟨⟨1, [1]⟩, ⟨0, [2]⟩, by simp [Tile.WF], by simp [Tile.WF], ?_⟩
  have e1 : tileSumnorm (α := ℝ) ⟨1, [1]⟩ ⟨0, [2]⟩ 0 = .ok [submitSumnorm 1 1 1 (1, 0) (0, 0)] := by
    simp [tileSumnorm, Tile.ndim, throwIf, vget, tileCheckMse, forCheck, forN, mOf, nOf, kOf, Tile.handle]
  have e2 : sumnormAsync (α := ℝ) (⟨1, [1]⟩ : Tile).one (⟨0, [2]⟩ : Tile).one 0 = .ok [submitClear (0, 0), submitSumnorm 1 1 1 (1, 0) (0, 0)] := by
    simp [sumnormAsync, Tile.one, Tensor.ndim, throwIf, vget, checkMse, forCheck, forN, mOf, nOf, kOf, Tensor.ntiles, Tensor.grid, Tensor.handleL, forTasks,
      mseTileIndex, Tensor.tindex, Tensor.handleAt, Tensor.tshapeAt, Tensor.tshape, tileShape]
  rw [e1, e2]
  rintro (⟨⟨m, h⟩, _⟩ | ⟨⟨m, h⟩, _⟩ | ⟨a, b, ha, hb, h⟩)
  · cases h
  · cases h
  have ha := Except.ok.inj ha
  have hb := Except.ok.inj hb
  subst ha; subst hb
  have h := h st
  simp [runAll1, runAll, Task1.toTask, Task.exec, Task.outs, submitSumnorm, submitClear, task1, task0, sumnormKernel, clearKernel, forN, Buf.rd, Buf.wr, st, Store.view,
    Store.setAll, snStep, Buf.undef] at h
  have h0 := congrFun h (0, 0)
  simp at h0
  have h1 := congrFun h0 0
  simp at h1

/-- `gemm` of two vectors without contracted dimension (the outer product): the tensor operation submits its task, the tile operation throws. -/
theorem C59_gemm_refuted : ∃ (A B C : Tile), A.WF ∧ B.WF ∧ C.WF ∧ (∃ t, gemmAsync (1 : ℝ) .noTrans A.one .noTrans B.one 0 C.one 0 0 false = .ok t) ∧
    Throws (tileGemm (1 : ℝ) .noTrans A .noTrans B 0 C 0 0) :=
  ⟨⟨0, [2]⟩, ⟨1, [3]⟩, ⟨2, [2, 3]⟩, by simp [Tile.WF], by simp [Tile.WF], by simp [Tile.WF], ⟨_, rfl⟩, ⟨_, rfl⟩⟩

/-- `nrm2` of a vector: with a scalar temporary the tensor operation throws, with a temporary of one dimension the tile operation throws. -/
theorem C59_nrm2_refuted : ∃ (src dst tmp tmp' : Tile), src.WF ∧ dst.WF ∧ tmp.WF ∧ tmp'.WF ∧
    (∃ t, tileNrm2 (1 : ℝ) src 0 dst tmp = .ok t) ∧ Throws (nrm2Async (1 : ℝ) src.one 0 dst.one tmp.one) ∧
    Throws (tileNrm2 (1 : ℝ) src 0 dst tmp') ∧ ∃ t, nrm2Async (1 : ℝ) src.one 0 dst.one tmp'.one = .ok t := by
  refine ⟨⟨0, [2]⟩, ⟨1, []⟩, ⟨2, []⟩, ⟨2, [1]⟩, by simp [Tile.WF], by simp [Tile.WF], by simp [Tile.WF], by simp [Tile.WF], ?_, ⟨_, rfl⟩, ⟨_, rfl⟩, ?_⟩
  · simp [tileNrm2, Tile.ndim, throwIf]
  · simp [nrm2Async, Tile.one, Tensor.ndim, throwIf, Tensor.grid, Tensor.handleL, Tensor.ntiles, forTasks]

/-! ### Instances of the hypotheses -/

example : (⟨0, [2, 3]⟩ : Tile).WF ∧ (⟨0, [2, 3]⟩ : Tile).shape = (⟨1, [2, 3]⟩ : Tile).shape ∧ (⟨0, [2, 3]⟩ : Tile).shape = (⟨1, [2]⟩ : Tile).shape ++ [3] := by
  simp [Tile.WF]

/-- The norm of the vector `(1, 1)`. -/
example : ∃ tasks s', tileNrm2 (3 : ℝ) ⟨0, [2]⟩ 1 ⟨1, []⟩ ⟨2, []⟩ = .ok tasks ∧ runAll1 tasks st = .ok s' ∧ (s' (1, 0)).data 0 = some (Real.sqrt 19) := by
  obtain ⟨t, s', h1, h2, h3, _⟩ := C59_nrm2_partial (src := ⟨0, [2]⟩) (dst := ⟨1, []⟩) (tmp := ⟨2, []⟩) (s := st) (by decide) (by decide) (by decide) rfl rfl
    (fun _ => 1) 1 3 1 (by simp [st, Tile.handle, Tile.nelems]) (by intro j _; rfl) (by simp [st, Tile.handle]) (fun _ => rfl) (by simp [st, Tile.handle])
  refine ⟨t, s', h1, h2, ?_⟩
  rw [show ((1, 0) : Handle) = (⟨1, []⟩ : Tile).handle from rfl, h3]
  norm_num [Tile.nelems]

end NNTile
