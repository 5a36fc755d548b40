import Verif.Lib.Tile
import Verif.Lib.Adam
import Verif.Lib.Softmax
import Verif.Lib.MseTensor
/-!
# C58: operations on tiles do the same as operations on tensors of one tile

The theorems quantify over all tiles (of any shapes, also unsuitable ones), all scalar arguments, all contents of the tiles, and over every
arithmetic `FP α`.
-/
namespace NNTile
section
variable {α : Type}

private theorem SimM.seq' {γ : Type} {p q : M Unit} {f g : Unit → M γ} (h : SimM p q) (hf : q = .ok () → SimM (f ()) (g ())) : SimM (p >>= f) (q >>= g) := by
  rcases h with ⟨⟨m, h⟩, ⟨m', h'⟩⟩ | ⟨⟨m, h⟩, ⟨m', h'⟩⟩ | ⟨a, h, h'⟩
  · subst h; subst h'; exact .inl ⟨⟨m, rfl⟩, ⟨m', rfl⟩⟩
  · subst h; subst h'; exact .inr (.inl ⟨⟨m, rfl⟩, ⟨m', rfl⟩⟩)
  · rw [h, h', M.bind_ok, M.bind_ok]; exact hf h'

/-! ### Element-wise operations -/

theorem C58_clear [FP α] {A : Tile} (hA : A.WF) : SameOutcome (α := α) (tileClear A) (clearAsync A.one) :=
  (SimM.of_eq (loop0_one hA (fun _ h => submitClear h)).symm).same
theorem C58_fill {A : Tile} (hA : A.WF) (val : α) : SameOutcome (tileFill val A) (fillAsync val A.one) :=
  (SimM.of_eq (loop0_one hA (fun n h => submitFill n val h)).symm).same
theorem C58_scal_inplace [FP α] {A : Tile} (hA : A.WF) (alpha : α) : SameOutcome (tileScalInplace alpha A) (scalInplaceAsync alpha A.one) :=
  (SimM.of_eq (loop0_one hA (fun n h => submitScalInplace alpha n h)).symm).same
theorem C58_pow [FP α] {A : Tile} (hA : A.WF) (alpha exp : α) : SameOutcome (tilePow alpha exp A) (powAsync alpha exp A.one) :=
  (SimM.of_eq (loop0_one hA (fun n h => submitPow n alpha exp h)).symm).same
theorem C58_sqrt_inplace [FP α] {A : Tile} (hA : A.WF) : SameOutcome (α := α) (tileSqrtInplace A) (sqrtInplaceAsync A.one) :=
  (SimM.of_eq (loop0_one hA _).symm).same
theorem C58_relu [FP α] {A : Tile} (hA : A.WF) : SameOutcome (α := α) (tileRelu A) (reluAsync A.one) :=
  (SimM.of_eq (loop0_one hA _).symm).same
theorem C58_drelu [FP α] {A : Tile} (hA : A.WF) : SameOutcome (α := α) (tileDrelu A) (dreluAsync A.one) :=
  (SimM.of_eq (loop0_one hA _).symm).same
theorem C58_gelu [FP α] {A : Tile} (hA : A.WF) : SameOutcome (α := α) (tileGelu A) (geluAsync A.one) :=
  (SimM.of_eq (loop0_one hA _).symm).same
theorem C58_dgelu [FP α] {A : Tile} (hA : A.WF) : SameOutcome (α := α) (tileDgelu A) (dgeluAsync A.one) :=
  (SimM.of_eq (loop0_one hA _).symm).same
theorem C58_gelutanh_inplace [FP α] {A : Tile} (hA : A.WF) : SameOutcome (α := α) (tileGelutanhInplace A) (gelutanhInplaceAsync A.one) :=
  (SimM.of_eq (loop0_one hA _).symm).same
theorem C58_dgelutanh [FP α] {A : Tile} (hA : A.WF) : SameOutcome (α := α) (tileDgelutanh A) (dgelutanhAsync A.one) :=
  (SimM.of_eq (loop0_one hA _).symm).same

theorem C58_add_scalar [FP α] {A : Tile} (hA : A.WF) (alpha beta : α) : SameOutcome (tileAddScalar alpha beta A) (addScalarAsync alpha beta A.one) := by
  refine SimM.same ?_
  unfold tileAddScalar addScalarAsync
  by_cases h : (FP.eqb alpha 0 && FP.eqb beta 1) = true
  · rw [if_pos h, if_pos h]; exact SimM.refl _
  · rw [if_neg h, if_neg h, loop0_one hA]; exact SimM.refl _

theorem C58_scal [FP α] {src dst : Tile} (hs : src.WF) (alpha : α) : SameOutcome (tileScal alpha src dst) (scalAsync alpha src.one dst.one) := by
  refine ((sim_checkSame dst src).seq ?_).same
  rw [loop1_one hs]; exact SimM.refl _

theorem C58_add [FP α] {src dst : Tile} (hs : src.WF) (alpha beta : α) : SameOutcome (tileAdd alpha src beta dst) (addAsync alpha src.one beta dst.one) := by
  refine ((sim_checkSame dst src).seq ?_).same
  by_cases h : (FP.eqb alpha 0 && FP.eqb beta 1) = true
  · rw [if_pos h, if_pos h]; exact SimM.refl _
  · rw [if_neg h, if_neg h, loop1_one hs]; exact SimM.refl _

theorem C58_hypot [FP α] {src dst : Tile} (hs : src.WF) (alpha beta : α) :
    SameOutcome (tileHypot alpha src beta dst) (hypotAsync alpha src.one beta dst.one) := by
  refine ((sim_checkSame dst src).seq ?_).same
  by_cases h : (FP.eqb alpha 0 && FP.eqb beta 1) = true
  · rw [if_pos h, if_pos h]; exact SimM.refl _
  · rw [if_neg h, if_neg h, loop1_one hs]; exact SimM.refl _

theorem C58_prod [FP α] {src dst : Tile} (hs : src.WF) : SameOutcome (α := α) (tileProd src dst) (prodAsync src.one dst.one) := by
  refine ((sim_checkSame' src dst).seq ?_).same
  rw [loop1_one hs]; exact SimM.refl _

theorem C58_maximum [FP α] {src dst : Tile} (hs : src.WF) : SameOutcome (α := α) (tileMaximum src dst) (maximumAsync src.one dst.one) := by
  refine ((sim_checkSame' src dst).seq ?_).same
  rw [loop1_one hs]; exact SimM.refl _

theorem C58_relu_forward [FP α] {src dst : Tile} (hs : src.WF) : SameOutcome (α := α) (tileReluForward src dst) (reluForwardAsync src.one dst.one) := by
  refine ((sim_checkSame' src dst).seq ?_).same
  rw [loop1_one hs]; exact SimM.refl _

theorem C58_relu_backward [FP α] {x dy dx : Tile} (hx : x.WF) :
    SameOutcome (α := α) (tileReluBackward x dy dx) (reluBackwardAsync x.one dy.one dx.one) := by
  refine ((sim_checkSame' x dy).seq ((sim_checkSame' x dx).seq ?_)).same
  rw [loop2_one hx]; exact SimM.refl _

theorem C58_gelu_backward [FP α] {x dy dx : Tile} (hx : x.WF) :
    SameOutcome (α := α) (tileGeluBackward x dy dx) (geluBackwardAsync x.one dy.one dx.one) := by
  refine ((sim_checkSame' x dy).seq ((sim_checkSame' x dx).seq ?_)).same
  rw [loop2_one hx]; exact SimM.refl _

theorem C58_gelutanh_backward [FP α] {x dy dx : Tile} (hx : x.WF) :
    SameOutcome (α := α) (tileGelutanhBackward x dy dx) (gelutanhBackwardAsync x.one dy.one dx.one) := by
  refine ((sim_checkSame' x dy).seq ((sim_checkSame' x dx).seq ?_)).same
  rw [loop2_one hx]; exact SimM.refl _

theorem C58_axpy_scalar [FP α] {src dst : Tile} (hs : src.WF) (alpha : α) :
    SameOutcome (tileAxpyScalar alpha src dst) (axpyScalarAsync alpha src.one dst.one) := by
  refine ((sim_checkSame' src dst).seq ?_).same
  rw [loop1_one hs]; exact SimM.refl _

theorem C58_axpy [FP α] {alpha src dst : Tile} (hs : src.WF) : SameOutcome (α := α) (tileAxpy alpha src dst) (axpyAsync alpha.one src.one dst.one) := by
  refine (SimM.check Iff.rfl (fun _ => ?_)).same
  unfold tileCheckShape
  refine SimM.check Iff.rfl (fun h => SimM.skip h ?_)
  rw [Tile.one_handleL, M.bind_ok, Tile.one_ntiles, forTasks_one, Tile.one_handleL, Tile.one_handleL, M.bind_ok, M.bind_ok, Tile.one_tnelems hs]
  exact SimM.refl _

theorem C58_copy (src dst : Tile) : SameOutcome (α := α) (tileCopy src dst) (copyAsync src.one dst.one) := by
  unfold tileCopy copyAsync tileCheckShape
  refine (SimM.check Iff.rfl (fun h => SimM.skip h ?_)).same
  rw [Tile.one_ntiles, forTasks_one, Tile.one_handleL, Tile.one_handleL, M.bind_ok, M.bind_ok]
  exact SimM.refl _

theorem C58_addcdiv [FP α] {nom denom src : Tile} (h1 : nom.WF) (h2 : denom.WF) (h3 : src.WF) (val eps : α) :
    SameOutcome (tileAddcdiv val eps nom denom src) (addcdivAsync val eps nom.one denom.one src.one) := by
  unfold tileAddcdiv addcdivAsync tileCheckShape
  refine (SimM.check ?_ (fun _ => SimM.check ?_ (fun _ => ?_))).same
  · exact not_congr ⟨fun h => congrArg _ h, matrixShapeOf_inj h1 h2⟩
  · exact not_congr ⟨fun h => congrArg _ h.symm, fun h => (matrixShapeOf_inj h3 h1 h).symm⟩
  · rw [Tile.one_ntiles, forTasks_one, Tile.one_handleL, Tile.one_handleL, Tile.one_handleL, M.bind_ok, M.bind_ok, M.bind_ok, Tile.one_tnelems h3]
    exact SimM.refl _

private theorem sim_adam {g m v p : Tile} (hg : g.WF) (hm : m.WF) (hv : v.WF) (hp : p.WF) (c : String) (k : AdamKernel α) (n : Int) (b1 b2 eps lr wd : α) :
    SimM (tileAdam c k n b1 b2 eps lr wd g m v p) (adamTensor c k n b1 b2 eps lr wd g.one m.one v.one p.one) := by
  unfold tileAdam adamTensor tileCheckShape
  refine SimM.check ?_ (fun _ => SimM.check ?_ (fun _ => SimM.check ?_ (fun _ => ?_)))
  · exact not_congr ⟨fun h => congrArg _ h.symm, fun h => (matrixShapeOf_inj hp hg h).symm⟩
  · exact not_congr ⟨fun h => congrArg _ h.symm, fun h => (matrixShapeOf_inj hp hm h).symm⟩
  · exact not_congr ⟨fun h => congrArg _ h.symm, fun h => (matrixShapeOf_inj hp hv h).symm⟩
  · rw [Tile.one_ntiles, forTasks_one, Tile.one_handleL, Tile.one_handleL, Tile.one_handleL, Tile.one_handleL, M.bind_ok, M.bind_ok, M.bind_ok,
      M.bind_ok, Tile.one_tshapeL hp]
    exact SimM.refl _

theorem C58_adam_step [FP α] {g m v p : Tile} (hg : g.WF) (hm : m.WF) (hv : v.WF) (hp : p.WF) (n : Int) (b1 b2 eps lr wd : α) :
    SameOutcomeT (tileAdamStep n b1 b2 eps lr wd g m v p) (adamStepAsync n b1 b2 eps lr wd g.one m.one v.one p.one) :=
  (sim_adam hg hm hv hp ..).sameT
theorem C58_adamw_step [FP α] {g m v p : Tile} (hg : g.WF) (hm : m.WF) (hv : v.WF) (hp : p.WF) (n : Int) (b1 b2 eps lr wd : α) :
    SameOutcomeT (tileAdamwStep n b1 b2 eps lr wd g m v p) (adamwStepAsync n b1 b2 eps lr wd g.one m.one v.one p.one) :=
  (sim_adam hg hm hv hp ..).sameT

/-! ### Slices and fibers -/

private theorem axis_lt {axis : Int} {n : Nat} (h : ¬ axis < 0) (h' : ¬ axis ≥ n) : axis.toNat < n := by omega

theorem C58_add_slice [FP α] {src dst : Tile} (hd : dst.WF) (alpha beta : α) (axis : Int) :
    SameOutcome (tileAddSlice alpha src beta dst axis) (addSliceAsync alpha src.one beta dst.one axis) := by
  refine (SimM.check Iff.rfl (fun hn => SimM.check Iff.rfl (fun h0 => SimM.check Iff.rfl (fun h1 => (sim_checkErase ..).seq ?_)))).same
  rw [sliceLoop_one hd (not_not.1 hn) (axis_lt h0 h1)]; exact SimM.refl _

theorem C58_add_slice3 [FP α] {src1 src2 dst : Tile} (hd : dst.WF) (alpha beta : α) (axis : Int) :
    SameOutcome (tileAddSlice3 alpha src1 beta src2 dst axis) (addSlice3Async alpha src1.one beta src2.one dst.one axis) := by
  refine (SimM.check Iff.rfl (fun hn => SimM.check Iff.rfl (fun _ => SimM.check Iff.rfl (fun h0 => SimM.check Iff.rfl (fun h1 => (sim_checkErase ..).seq ?_))))).same
  unfold tileCheckShape
  refine SimM.check Iff.rfl (fun h => SimM.skip h ?_)
  rw [sliceLoop_one hd (not_not.1 hn) (axis_lt h0 h1), Tile.one_handleL]; exact SimM.refl _

theorem C58_prod_slice [FP α] {src dst : Tile} (hd : dst.WF) (alpha : α) (axis : Int) :
    SameOutcome (tileProdSlice src alpha dst axis) (prodSliceAsync src.one alpha dst.one axis) := by
  refine (SimM.check Iff.rfl (fun hn => SimM.check Iff.rfl (fun h0 => SimM.check Iff.rfl (fun h1 => (sim_checkErase ..).seq ?_)))).same
  rw [sliceLoop_one hd (not_not.1 hn) (axis_lt h0 h1)]; exact SimM.refl _

theorem C58_sum_slice [FP α] {src dst : Tile} (hs : src.WF) (alpha beta : α) (axis : Int) :
    SameOutcome (tileSumSlice alpha src beta dst axis) (sumSliceAsync alpha src.one beta dst.one axis false) := by
  refine (SimM.check Iff.rfl (fun hn => SimM.check Iff.rfl (fun _ => SimM.check Iff.rfl (fun h0 => SimM.check Iff.rfl (fun h1 => (sim_checkErase ..).seq ?_))))).same
  rw [sliceReduceLoop_one hs (by have := not_not.1 hn; omega) (axis_lt h0 h1)]; exact SimM.refl _

theorem C58_norm_slice [FP α] {src dst : Tile} (hs : src.WF) (alpha beta : α) (axis : Int) :
    SameOutcome (tileNormSlice alpha src beta dst axis) (normSliceAsync alpha src.one beta dst.one axis false) := by
  refine (SimM.check Iff.rfl (fun hn => SimM.check Iff.rfl (fun _ => SimM.check Iff.rfl (fun h0 => SimM.check Iff.rfl (fun h1 => (sim_checkErase ..).seq ?_))))).same
  rw [sliceReduceLoop_one hs (by have := not_not.1 hn; omega) (axis_lt h0 h1)]; exact SimM.refl _

theorem C58_sumprod_slice [FP α] {src1 src2 dst : Tile} (hs : src1.WF) (alpha beta : α) (axis : Int) :
    SameOutcome (tileSumprodSlice alpha src1 src2 beta dst axis) (sumprodSliceAsync alpha src1.one src2.one beta dst.one axis false) := by
  unfold tileSumprodSlice tileCheckShape
  refine (SimM.check Iff.rfl (fun _ => SimM.check Iff.rfl (fun hn => SimM.check Iff.rfl (fun _ => SimM.check Iff.rfl (fun h0 => SimM.check Iff.rfl
    (fun h1 => (sim_checkErase ..).seq ?_)))))).same
  rw [sliceReduceLoop_one hs (not_not.1 hn) (axis_lt h0 h1), Tile.one_handleL]; exact SimM.refl _

private theorem vslice_zero {n i k : Nat} (h : i + k ≤ n) : vslice (List.replicate n 0) i k = .ok (List.replicate k 0) := by
  rw [vslice, if_pos (by simpa using h), List.drop_replicate, List.take_replicate, Nat.min_eq_left (by omega)]

theorem C58_add_fiber [FP α] {src dst : Tile} (hs : src.WF) (hd : dst.WF) (alpha beta : α) (axis batch_ndim : Int) :
    SameOutcome (tileAddFiber alpha src beta dst axis batch_ndim) (addFiberAsync alpha src.one beta dst.one axis batch_ndim) := by
  refine (SimM.check Iff.rfl (fun hn => SimM.check Iff.rfl (fun h0 => SimM.check Iff.rfl (fun h1 => (sim_checkFiber ..).seq' (fun hc => ?_))))).same
  rw [Tile.one_ndim] at *
  have hn := not_not.1 hn
  by_cases ha : FP.eqb alpha 0 = true
  · rw [if_pos ha, if_pos ha]; exact SimM.refl _
  rw [if_neg ha, if_neg ha]
  by_cases hb : batch_ndim = -1
  · exfalso
    have : src.shape = [] := List.eq_nil_of_length_eq_zero (by have : (src.ndim : Int) = 0 := by omega
                                                               have : src.ndim = 0 := by omega
                                                               exact this)
    unfold checkFiber checkPair at hc
    rw [Tile.one_shape, this] at hc
    simp [vget] at hc
  have hb0 : 0 ≤ batch_ndim := by omega
  rw [Tile.one_ntiles, forTasks_one, Tile.one_handleL, Tile.one_tshapeL hd, Tile.one_tindex]
  have e : (0 :: List.replicate batch_ndim.toNat 0) = List.replicate src.ndim 0 := by
    rw [← List.replicate_succ]; congr 1; omega
  dsimp only
  rw [M.bind_ok, vget_replicate (by omega), M.bind_ok, vslice_zero (by omega), M.bind_ok, e, Tile.one_handleAt, M.bind_ok, Tile.one_tshapeAt hs, M.bind_ok]
  exact SimM.refl _

private theorem initFirst_zero (n d a : Nat) : initFirst (List.replicate n 0) d a = true := by
  simp only [initFirst, List.all_eq_true, List.mem_range, Bool.or_eq_true, decide_eq_true_eq]
  intro j _
  right
  by_cases h : j < n <;> simp [List.getD_eq_getElem?_getD, h]

theorem C58_sum_fiber [FP α] {src dst : Tile} (hs : src.WF) (hd : dst.WF) (alpha beta : α) (axis batch_ndim : Int) :
    SameOutcome (tileSumFiber alpha src beta dst axis batch_ndim) (sumFiberAsync alpha src.one beta dst.one axis batch_ndim false) := by
  refine (SimM.check Iff.rfl (fun hn => SimM.check Iff.rfl (fun _ => SimM.check Iff.rfl (fun h0 => SimM.check Iff.rfl (fun h1 =>
    (sim_checkFiber ..).seq' (fun hc => ?_)))))).same
  have hn := not_not.1 hn
  by_cases hb : batch_ndim = -1
  · exfalso
    have : dst.shape = [] := List.eq_nil_of_length_eq_zero (by have : (dst.ndim : Int) = 0 := by omega
                                                               have : dst.ndim = 0 := by omega
                                                               exact this)
    unfold checkFiber checkPair at hc
    rw [Tile.one_shape, this] at hc
    simp [vget] at hc
  have hb0 : 0 ≤ batch_ndim := by omega
  rw [Tile.one_ntiles, forTasks_one, Tile.one_handleL, Tile.one_tshapeL hs, Tile.one_tindex]
  have e : (0 :: List.replicate batch_ndim.toNat 0) = List.replicate dst.ndim 0 := by
    rw [← List.replicate_succ]; congr 1; omega
  dsimp only
  rw [Tile.one_ndim, M.bind_ok, vget_replicate (by omega), M.bind_ok, vslice_zero (by omega), M.bind_ok, e, Tile.one_handleAt, M.bind_ok, Tile.one_tshapeAt hd,
    M.bind_ok, initFirst_zero, if_pos rfl]
  exact SimM.refl _

theorem C58_prod_fiber [FP α] {src dst : Tile} (hd : dst.WF) (alpha : α) (axis : Int) :
    SameOutcome (tileProdFiber src alpha dst axis) (prodFiberAsync src.one alpha dst.one axis) := by
  refine (SimM.check Iff.rfl (fun _ => SimM.check Iff.rfl (fun h0 => SimM.check Iff.rfl (fun h1 => (sim_checkPair ..).seq ?_)))).same
  rw [Tile.one_ntiles, forTasks_one, Tile.one_handleL, Tile.one_tshapeL hd, Tile.one_tindex]
  dsimp only
  rw [M.bind_ok, vget_replicate (axis_lt h0 h1), M.bind_ok, Tile.one_handleL, M.bind_ok]
  exact SimM.refl _

theorem C58_prod_fiber3 [FP α] {src1 src2 dst : Tile} (hd : dst.WF) (alpha : α) (axis : Int) :
    SameOutcome (tileProdFiber3 src1 alpha src2 dst axis) (prodFiber3Async src1.one alpha src2.one dst.one axis) := by
  refine (SimM.check Iff.rfl (fun _ => SimM.check Iff.rfl (fun _ => SimM.check Iff.rfl (fun h0 => SimM.check Iff.rfl (fun h1 => (sim_checkPair ..).seq ?_))))).same
  unfold tileCheckShape
  refine SimM.check Iff.rfl (fun h => SimM.skip h ?_)
  rw [Tile.one_ntiles, forTasks_one, Tile.one_handleL, Tile.one_tshapeL hd, Tile.one_tindex]
  dsimp only
  rw [M.bind_ok, vget_replicate (axis_lt h0 h1), M.bind_ok, Tile.one_handleL, M.bind_ok, Tile.one_handleL, M.bind_ok]
  exact SimM.refl _

theorem C58_sumprod_fiber [FP α] {src1 src2 dst : Tile} (hs : src1.WF) (alpha beta : α) (axis : Int) :
    SameOutcome (tileSumprodFiber alpha src1 src2 beta dst axis) (sumprodFiberAsync alpha src1.one src2.one beta dst.one axis false) := by
  unfold tileSumprodFiber tileCheckShape
  refine (SimM.check Iff.rfl (fun _ => SimM.check Iff.rfl (fun _ => SimM.check Iff.rfl (fun _ => SimM.check Iff.rfl (fun h0 => SimM.check Iff.rfl
    (fun h1 => (sim_checkPair ..).seq ?_)))))).same
  rw [Tile.one_ntiles, forTasks_one, Tile.one_handleL, Tile.one_handleL, Tile.one_tshapeL hs, Tile.one_tindex]
  dsimp only
  rw [M.bind_ok, M.bind_ok, vget_replicate (axis_lt h0 h1), M.bind_ok, Tile.one_handleL, M.bind_ok, initFirst_zero, if_pos rfl]
  exact SimM.refl _

/-! ### Softmax and normalization -/

theorem C58_maxsumexp [FP α] {src dst : Tile} (hs : src.WF) (axis : Int) :
    SameOutcome (α := α) (tileMaxsumexp src dst axis) (maxsumexpAsync src.one dst.one axis false) := by
  refine (SimM.check Iff.rfl (fun hn => SimM.check Iff.rfl (fun _ => SimM.check Iff.rfl (fun h0 => SimM.check Iff.rfl (fun h1 =>
    sim_head _ ((sim_checkMse ..).seq ?_)))))).same
  have hn : src.ndim = dst.ndim := not_not.1 hn
  rw [Tile.one_ntiles, forTasks_one, Tile.one_handleL, M.bind_ok, Tile.one_vgrid (axis_lt h0 h1), M.bind_ok, forTasks_one, Tile.one_tindex,
    mseTileIndex_zero (hn ▸ axis_lt h0 h1), ← hn]
  dsimp only
  rw [Tile.one_handleAt, M.bind_ok, Tile.one_tshapeAt hs, M.bind_ok]
  exact SimM.refl _

theorem C58_normalize [FP α] {gb sn dst : Tile} (hd : dst.WF) (l : Int) (eps : α) (axis : Int) :
    SameOutcome (tileNormalize gb sn dst l eps axis) (normalizeAsync gb.one sn.one dst.one l eps axis) := by
  refine (SimM.check Iff.rfl (fun _ => (SimM.refl _).bind (fun g _ => SimM.check Iff.rfl (fun _ => SimM.skip (by simp) (SimM.check Iff.rfl (fun hn =>
    SimM.check Iff.rfl (fun _ => SimM.check Iff.rfl (fun _ => SimM.check Iff.rfl (fun _ => SimM.check Iff.rfl (fun h0 => SimM.check Iff.rfl (fun h1 =>
    sim_head _ ((sim_checkMse ..).seq ?_)))))))))))).same
  have hn : sn.ndim = dst.ndim := not_not.1 hn
  rw [Tile.one_handleL, M.bind_ok, Tile.one_ntiles, forTasks_one, Tile.one_handleL, M.bind_ok, Tile.one_vgrid (axis_lt h0 h1), M.bind_ok, forTasks_one, Tile.one_tindex,
    hn, mseTileIndex_zero (axis_lt h0 h1)]
  dsimp only
  rw [Tile.one_handleAt, M.bind_ok, Tile.one_tshapeAt hd, M.bind_ok]
  exact SimM.refl _

private theorem softmaxLoop_one {A B : Tile} (hA : A.WF) (hB : B.WF) {a : Nat} (hn : A.ndim = B.ndim) (ha : a < B.ndim) (hs : A.shape = 2 :: B.shape.eraseIdx a)
    (f : Nat → Nat → Nat → Handle → Handle → Nat → M (Task1 α)) :
    softmaxLoop A.one B.one a f = (f (mOf B.shape a) (nOf B.shape a) (kOf B.shape a) A.handle B.handle 0 >>= fun t => .ok [t]) := by
  rw [softmaxLoop, Tile.one_ntiles, forTasks_one, Tile.one_handleL, M.bind_ok, Tile.one_vgrid ha, M.bind_ok, forTasks_one, Tile.one_tindex,
    hn, mseTileIndex_zero ha]
  dsimp only
  rw [Tile.one_handleAt, M.bind_ok, Tile.one_tshapeAt hB, M.bind_ok, Tile.one_lin, Tile.one_tshapeL hA, hs]
  rw [show B.one.ndim = B.shape.length from rfl, softmaxSizes_eq ha]

private theorem mse_shape {A B : Tile} (hA : A.WF) (hB : B.WF) {a : Nat} (hn : A.ndim = B.ndim) (ha : a < B.ndim) (h2 : vget A.shape 0 = .ok 2)
    (hc : checkMse B.one A.one a = .ok ()) : A.shape = 2 :: B.shape.eraseIdx a := by
  have h2 := vget_some_of_ok h2
  have hc' := checkMse_check (Tile.one_wf hB) (Tile.one_wf hA) (a := a) ha hn.symm (by rw [Tile.one_shape, List.getD_eq_getElem?_getD, h2]; rfl)
    (by rw [Tile.one_basetile, List.getD_eq_getElem?_getD, h2]; rfl)
  by_contra hne
  obtain ⟨m, hm⟩ := hc'.bad (fun h => hne h.shape)
  rw [hc] at hm
  exact absurd hm (by simp)

private theorem sim_head' {γ : Type} (l : List Nat) {v : Nat} {m m' m'' : String} {f g : M γ} (h : vget l 0 = .ok v → SimM f g) :
    SimM (vget l 0 >>= fun d => throwIf (d ≠ v) m >>= fun _ => f)
      (vget l 0 >>= fun d => throwIf (d ≠ v) m' >>= fun _ => vget l 0 >>= fun b => throwIf (b ≠ v) m'' >>= fun _ => g) := by
  refine (SimM.refl _).bind (fun d hd => SimM.check Iff.rfl (fun hv => ?_))
  rw [hd, M.bind_ok]
  exact SimM.skip hv (h (by rw [hd, not_not.1 hv]))

theorem C58_softmax [FP α] {mse src dst : Tile} (hm : mse.WF) (hd : dst.WF) (alpha : α) (axis : Int) :
    SameOutcome (tileSoftmax mse src alpha dst axis) (softmaxAsync mse.one src.one alpha dst.one axis) := by
  refine (SimM.check Iff.rfl (fun hn => SimM.check Iff.rfl (fun _ => SimM.check Iff.rfl (fun _ => SimM.check Iff.rfl (fun h0 => SimM.check Iff.rfl (fun h1 =>
    sim_head' _ (fun h2 => (sim_checkMse ..).seq' (fun hc => ?_)))))))).same
  have hn : mse.ndim = dst.ndim := not_not.1 hn
  unfold tileCheckShape
  refine SimM.check Iff.rfl (fun h => SimM.skip h ?_)
  rw [softmaxLoop_one hm hd hn (axis_lt h0 h1) (mse_shape hm hd hn (axis_lt h0 h1) h2 hc), Tile.one_handleL]
  exact SimM.refl _

theorem C58_softmax_inplace [FP α] {mse dst : Tile} (hm : mse.WF) (hd : dst.WF) (alpha : α) (axis : Int) :
    SameOutcome (tileSoftmaxInplace mse alpha dst axis) (softmaxInplaceAsync mse.one alpha dst.one axis) := by
  refine (SimM.check Iff.rfl (fun hn => SimM.check Iff.rfl (fun _ => SimM.check Iff.rfl (fun h0 => SimM.check Iff.rfl (fun h1 =>
    sim_head' _ (fun h2 => (sim_checkMse ..).seq' (fun hc => ?_))))))).same
  have hn : mse.ndim = dst.ndim := not_not.1 hn
  rw [softmaxLoop_one hm hd hn (axis_lt h0 h1) (mse_shape hm hd hn (axis_lt h0 h1) h2 hc)]
  exact SimM.refl _

theorem C58_logsumexp [FP α] {src dst : Tile} (hd : dst.WF) : SameOutcome (α := α) (tileLogsumexp src dst) (logsumexpAsync src.one dst.one) := by
  refine (SimM.check Iff.rfl (fun _ => SimM.check Iff.rfl (fun _ => sim_head _ ((SimM.forCheck (fun _ _ => sim_checkPair ..)).seq ?_)))).same
  rw [Tile.one_ntiles, forTasks_one, Tile.one_handleL, Tile.one_handleL, M.bind_ok, M.bind_ok, Tile.one_tshapeL hd]
  exact SimM.refl _

/-! ### Cross entropy, random numbers, matrix multiplication -/

theorem C58_total_sum_accum [FP α] {lse src labels val : Tile} (hl : lse.WF) (asIdx : α → Int) (alpha : α) :
    SameOutcome (tileTotalSumAccum asIdx alpha lse src labels val) (totalSumAccumAsync asIdx alpha lse.one src.one labels.one val.one) := by
  refine (SimM.check Iff.rfl (fun _ => SimM.check (by simp only [Tile.one_ndim]; omega) (fun _ => SimM.check Iff.rfl (fun _ =>
    (SimM.forCheck (fun _ _ => (sim_checkPair ..).seq (sim_checkPair ..))).seq ?_)))).same
  rw [Tile.one_basetile, Tile.one_shape]
  refine (SimM.refl _).bind (fun n hn => ?_)
  rw [hn, M.bind_ok]
  refine SimM.skip (by simp) ?_
  rw [Tile.one_handleL, M.bind_ok, Tile.one_ntiles, forTasks_one, Tile.one_handleL, Tile.one_handleL, Tile.one_handleL, M.bind_ok, M.bind_ok, M.bind_ok,
    Tile.one_tshapeL hl]
  exact SimM.refl _

theorem C58_subtract_indexed_outputs [FP α] {labels dst : Tile} (hl : labels.WF) (asIdx : α → Int) (val : α) :
    SameOutcome (tileSubtractIndexed asIdx val labels dst) (subtractIndexedAsync asIdx val labels.one dst.one) := by
  refine (SimM.check (by simp only [Tile.one_ndim]; omega) (fun _ => (SimM.forCheck (fun _ _ => sim_checkPair ..)).seq ?_)).same
  rw [Tile.one_basetile, Tile.one_shape]
  refine (SimM.refl _).bind (fun n hn => ?_)
  rw [hn, M.bind_ok]
  refine SimM.skip (by simp) ?_
  rw [Tile.one_ntiles, forTasks_one, Tile.one_handleL, Tile.one_handleL, M.bind_ok, M.bind_ok, Tile.one_tshapeL hl]
  exact SimM.refl _

theorem C58_randn {υ : Type} {dst : Tile} (hd : dst.WF) (uniform : Seed → υ) (normal : υ → υ → α) (start ushape : List Int) (seed : Seed) :
    SameOutcome (tileRandn uniform normal dst start ushape seed) (randnAsync uniform normal dst.one start ushape seed) := by
  refine SimM.same ?_
  unfold tileRandn randnAsync
  rw [Tile.one_ndim, Tile.one_shape]
  by_cases h1 : dst.ndim = start.length
  case neg => rw [throwIf_pos h1, if_pos h1]; exact .inl ⟨⟨_, rfl⟩, ⟨_, rfl⟩⟩
  rw [throwIf_neg (not_not.2 h1), if_neg (not_not.2 h1)]
  by_cases h2 : dst.ndim = ushape.length
  case neg => rw [throwIf_pos h2, if_pos h2]; exact .inl ⟨⟨_, rfl⟩, ⟨_, rfl⟩⟩
  rw [throwIf_neg (not_not.2 h2), if_neg (not_not.2 h2)]
  simp only [M.bind_ok]
  refine (SimM.refl _).bind (fun _ _ => ?_)
  by_cases h3 : dst.ndim = 0
  · rw [if_pos h3, if_neg (not_not.2 h3), Tile.one_handleL]; exact SimM.refl _
  · rw [if_neg h3, if_pos h3, Tile.one_ntiles]
    unfold odoLoop
    rw [Tile.one_handleL, M.bind_ok, Tile.one_tshapeL hd, M.bind_ok, if_pos rfl]
    exact SimM.refl _

theorem sim_gemmCheck (ta : TransOp) (A : Tile) (tb : TransOp) (B C : Tile) (nd bn : Int) (hnd : nd ≠ 0) :
    SimM (tileGemmCheck ta A tb B C nd bn) (gemmCheck ta A.one tb B.one C.one nd bn) := by
  refine SimM.check (by omega) (fun _ => SimM.check Iff.rfl (fun _ => SimM.check Iff.rfl (fun _ => SimM.check Iff.rfl (fun _ => SimM.check Iff.rfl (fun _ => ?_)))))
  refine (SimM.forCheck (fun _ _ => (sim_checkPair ..).seq (sim_checkPair ..))).seq (SimM.seq ?_ (SimM.seq ?_ ?_))
  · cases tb <;> cases ta <;> exact SimM.forCheck (fun _ _ => sim_checkPair ..)
  · cases ta <;> exact SimM.forCheck (fun _ _ => sim_checkPair ..)
  · cases tb <;> exact SimM.forCheck (fun _ _ => sim_checkPair ..)

theorem msRows_one (n d : Nat) : msRows (List.replicate n 1) d = 1 := by simp [msRows, List.take_replicate]
theorem msCols_one (n d : Nat) : msCols (List.replicate n 1) d = 1 := by simp [msCols, List.drop_replicate]

/-- `gemm` with at least one contracted dimension (`tile::gemm_async` rejects `ndim == 0`, see `C59_gemm_refuted`). -/
theorem C58_gemm [FP α] {A B C : Tile} (hA : A.WF) (hC : C.WF) (ta tb : TransOp) (alpha beta : α) (nd bn : Int) (hnd : nd ≠ 0) :
    SameOutcome (tileGemm alpha ta A tb B beta C nd bn) (gemmAsync alpha ta A.one tb B.one beta C.one nd bn false) := by
  refine ((sim_gemmCheck ta A tb B C nd bn hnd).seq ?_).same
  rw [Tile.one_grid, Tile.one_grid]
  dsimp only
  simp only [msRows_one, msCols_one, Nat.div_self Nat.one_pos]
  rw [show ta.sel 1 1 = 1 by cases ta <;> rfl]
  rw [forTasks_one, forTasks_one, forTasks_one]
  simp only [Nat.mul_one, Nat.mul_zero, Nat.add_zero, Tile.one_handleL, M.bind_ok, Tile.one_tshapeL hA, Tile.one_tshapeL hC, Nat.sub_self, forTasks,
    Tile.one_ndim]
  exact SimM.refl _

/-- What is known about the operation on the one-tile tensors holds for the operation on the tiles: this transfers the results of C10-C26. -/
theorem C58_computes {p q : M (List (Task1 α))} {s : Store α} {dst : Tensor} {v : List Nat → α} (h : SameOutcome p q) (hq : Computes q s dst v) : Computes p s dst v := by
  obtain ⟨t, s', h1, h2, h3⟩ := hq
  rcases h with ⟨_, m, hm⟩ | ⟨_, m, hm⟩ | ⟨a, b, ha, hb, hab⟩
  · rw [h1] at hm; cases hm
  · rw [h1] at hm; cases hm
  · obtain rfl : t = b := Except.ok.inj (h1.symm.trans hb)
    exact ⟨a, s', ha, (hab s).trans h2, h3⟩

end

/-! ### Concrete cases -/

/-- A sum of two tiles: both calls succeed; with unequal shapes both throw. -/
example : (⟨0, [2, 3]⟩ : Tile).WF ∧ (∃ t, tileAdd (1 : ℝ) ⟨0, [2, 3]⟩ 2 ⟨1, [2, 3]⟩ = .ok t) ∧ (∃ t, addAsync (1 : ℝ) (⟨0, [2, 3]⟩ : Tile).one 2 (⟨1, [2, 3]⟩ : Tile).one = .ok t) ∧
    Throws (tileAdd (1 : ℝ) ⟨0, [2, 3]⟩ 2 ⟨1, [3, 2]⟩) ∧ Throws (addAsync (1 : ℝ) (⟨0, [2, 3]⟩ : Tile).one 2 (⟨1, [3, 2]⟩ : Tile).one) := by
  have h1 : (⟨0, [2, 3]⟩ : Tile).WF := by simp [Tile.WF]
  have e1 : ∃ t, tileAdd (1 : ℝ) ⟨0, [2, 3]⟩ 2 ⟨1, [2, 3]⟩ = .ok t := by simp [tileAdd, throwIf, tileCheckSame, tileCheckDims, Tile.ndim]
  have e2 : Throws (tileAdd (1 : ℝ) ⟨0, [2, 3]⟩ 2 ⟨1, [3, 2]⟩) := by simp [tileAdd, throwIf, tileCheckSame, tileCheckDims, Tile.ndim, Throws]
  refine ⟨h1, e1, ?_, e2, ?_⟩
  · obtain ⟨t, ht⟩ := e1
    rcases C58_add (src := ⟨0, [2, 3]⟩) (dst := ⟨1, [2, 3]⟩) h1 (1 : ℝ) 2 with ⟨⟨m, h⟩, _⟩ | ⟨⟨m, h⟩, _⟩ | ⟨_, b, _, hb, _⟩
    · rw [ht] at h; cases h
    · rw [ht] at h; cases h
    · exact ⟨b, hb⟩
  · obtain ⟨m, hm⟩ := e2
    rcases C58_add (src := ⟨0, [2, 3]⟩) (dst := ⟨1, [3, 2]⟩) h1 (1 : ℝ) 2 with ⟨_, h⟩ | ⟨⟨m, h⟩, _⟩ | ⟨_, b, h, _⟩
    · exact h
    · rw [hm] at h; cases h
    · rw [hm] at h; cases h

/-- A matrix product of tiles `2 x 3` and `3 x 4` is submitted as one task. -/
example : (⟨0, [2, 3]⟩ : Tile).WF ∧ (⟨2, [2, 4]⟩ : Tile).WF ∧ ∃ t, tileGemm (1 : ℝ) .noTrans ⟨0, [2, 3]⟩ .noTrans ⟨1, [3, 4]⟩ 0 ⟨2, [2, 4]⟩ 1 0 = .ok t :=
  ⟨by simp [Tile.WF], by simp [Tile.WF], _, rfl⟩

end NNTile
