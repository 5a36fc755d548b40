import Verif.Lib.ReduxInto
/-! Operations submit only tasks which can be executed with replicas. -/
namespace NNTile
variable {N : Handle → Nat} {kd : Handle → Option ReduxKind}
attribute [local irreducible] SzAt AllT Task1.PlainTo

theorem Tgt.lin {k : ReduxKind} {T : Tensor} (h : Tgt N kd k T) {i : Nat} (hi : i < T.ntiles) : N (T.id, i) = (T.tshapeL i).prod ∧ kd (T.id, i) = some k := by
  have := h.2 _ (T.tindex_inBox i)
  rwa [Tensor.lin_tindex hi] at this

theorem Tgt.wf {k : ReduxKind} {T : Tensor} (h : Tgt N kd k T) : T.WF := h.1

theorem handleL_eq {T : Tensor} {i : Nat} {h : Handle} (e : T.handleL i = .ok h) : i < T.ntiles ∧ h = (T.id, i) := by
  unfold Tensor.handleL at e
  split at e
  · cases Except.ok.inj e; exact ⟨‹_›, rfl⟩
  · cases e

theorem handleAt_eq {T : Tensor} {t : List Nat} {h : Handle} (e : T.handleAt t = .ok h) : InBox T.grid t ∧ h = (T.id, NNTile.lin T.grid t) := by
  unfold Tensor.handleAt at e
  split at e
  · cases Except.ok.inj e; exact ⟨‹_›, rfl⟩
  · cases e

theorem tshapeAt_eq {T : Tensor} {t : List Nat} {S : List Nat} (e : T.tshapeAt t = .ok S) : InBox T.grid t ∧ S = T.tshape t := by
  unfold Tensor.tshapeAt at e
  split at e
  · cases Except.ok.inj e; exact ⟨‹_›, rfl⟩
  · cases e

theorem vget_eq {l : List Nat} {i x : Nat} (h : vget l i = .ok x) : x = l.getD i 0 := by
  unfold vget at h
  cases hl : l[i]? with
  | none => rw [hl] at h; cases h
  | some y =>
    rw [hl] at h
    cases Except.ok.inj h
    rw [List.getD_eq_getElem?_getD, hl]
    rfl

theorem vslice_eq {l r : List Nat} {i n : Nat} (h : vslice l i n = .ok r) : r = (l.drop i).take n := by
  unfold vslice at h
  split at h
  · exact (Except.ok.inj h).symm
  · cases h

theorem bindT {β : Type} {P : Task1 ℝ → Prop} {e : M β} {f : β → M (List (Task1 ℝ))} (h : ∀ x, AllT P (f x)) : AllT P (e >>= f) := AllT.bind fun x _ => h x

theorem gemmAsync_redc {tA tB : TransOp} {A B C : Tensor} {al be : ℝ} {nd bt : Int} {redux : Bool} (hC : Tgt N kd .add C) :
    AllT (Task1.Redc N kd) (gemmAsync al tA A tB B be C nd bt redux) := by
  unfold gemmAsync
  refine AllT.bind fun u hu => ?_
  have hfit : bt.toNat + nd.toNat ≤ A.ndim ∧ bt.toNat + nd.toNat ≤ B.ndim ∧ A.ndim + B.ndim = C.ndim + 2 * nd.toNat + bt.toNat := by
    simp only [gemmCheck, M.bind_eq_ok] at hu
    obtain ⟨_, h1, _, h2, _, h3, _, h4, _, h5, -⟩ := hu
    have := throwIf_ok h1
    have := throwIf_ok h2
    have := throwIf_ok h3
    have := throwIf_ok h4
    have := throwIf_ok h5
    omega
  obtain ⟨f1, f2, f3⟩ := hfit
  have key : ∀ off, off < C.ntiles → N (C.id, off) = msRows (C.tshapeL off) (A.ndim - bt.toNat - nd.toNat) *
      (msCols (C.tshapeL off) (A.ndim - bt.toNat - nd.toNat) / msCols (C.tshapeL off) (C.ndim - bt.toNat)) * msCols (C.tshapeL off) (C.ndim - bt.toNat) ∧ kd (C.id, off) = some .add := by
    intro off ho
    obtain ⟨h1, h2⟩ := hC.lin ho
    refine ⟨?_, h2⟩
    rw [h1, mul_assoc, Nat.div_mul_cancel, msRows, msCols, List.prod_take_mul_prod_drop]
    obtain ⟨e, he⟩ : ∃ e, C.ndim - bt.toNat = A.ndim - bt.toNat - nd.toNat + e := ⟨C.ndim - bt.toNat - (A.ndim - bt.toNat - nd.toNat), by omega⟩
    rw [msCols, msCols, he, ← List.drop_drop]
    exact ⟨_, by rw [mul_comm, ← List.prod_take_mul_prod_drop (C.tshapeL off |>.drop (A.ndim - bt.toNat - nd.toNat)) e]⟩
  dsimp only
  refine AllT.forTasks fun b _ => AllT.forTasks fun j _ => AllT.forTasks fun i _ => AllT.bind fun h hh => AllT.bind fun hA _ => AllT.bind fun hB _ => ?_
  obtain ⟨ho, rfl⟩ := handleL_eq hh
  obtain ⟨k1, k2⟩ := key _ ho
  have task : ∀ m n k bt' al be hA hB h, N h = m * n * bt' → kd h = some .add → (submitGemm tA tB m n k bt' al hA hB be h redux : Task1 ℝ).Redc N kd := by
    intro m n k bt' al be hA hB h e1 e2
    refine Redc.of (sz_task2 fun a a' b => gemmKernel_sz b) e2 e1 (by decide) fun hm => accK_task2 fun a a' => ?_
    have := reduceMode_REDUX hm
    subst this
    exact Acc.accK_add (gemm_acc tA tB m n k bt' al a a')
  refine AllT.consBind (task _ _ _ _ _ _ _ _ _ k1 k2) (AllT.forTasks fun l _ => AllT.bind fun h' _ => AllT.bind fun h'' _ => AllT.single (task _ _ _ _ _ _ _ _ _ k1 k2))

theorem sliceReduceLoop_redc {src dst : Tensor} {a : Nat} {be : ℝ} {submit : ℝ → List Nat → Handle → Nat → Handle → M (Task1 ℝ)} {k : ReduxKind}
    (hs : src.WF) (hd : Tgt N kd k dst) (hsl : dst.SliceOf src a)
    (h : ∀ be S hs i hd t, N hd = mOf S a * nOf S a → kd hd = some k → submit be S hs i hd = .ok t → t.Redc N kd) :
    AllT (Task1.Redc N kd) (sliceReduceLoop src dst a be submit) := by
  unfold sliceReduceLoop
  refine AllT.forTasks fun i _ => AllT.bind fun hh h1 => AllT.bind fun g h2 => AllT.forTasks fun j hj => AllT.bind fun h' h3 => AllT.bind fun S h4 => AllT.bind fun t h5 => AllT.single ?_
  obtain ⟨ho, rfl⟩ := handleL_eq h1
  obtain ⟨k1, k2⟩ := hd.lin ho
  obtain ⟨hb, rfl⟩ := tshapeAt_eq h4
  refine h _ _ _ _ _ _ ?_ k2 h5
  have hb' : InBox dst.grid (dst.tindex i) := dst.tindex_inBox i
  have hax2 : a < (src.tshape ((dst.tindex i).insertIdx a j)).length := by rw [hs.tshape_length hb]; exact hsl.axis
  have hts : dst.tshape (dst.tindex i) = (src.tshape ((dst.tindex i).insertIdx a j)).eraseIdx a := by rw [← hsl.tshape hs hb, erase_insert]
  rw [k1, Tensor.tshapeL, hts, prod_erase]
  rfl

theorem erase_of {src dst : Tensor} {axis : Int} {u : Unit} (hs : src.WF) (hd : dst.WF) (h0 : ¬ axis < 0) (h1 : ¬ axis ≥ src.ndim) (hn : src.ndim = dst.ndim + 1) (h : checkErase src dst axis.toNat = .ok u) :
    dst.SliceOf src axis.toNat := by
  have ha : axis.toNat < src.ndim := by omega
  obtain ⟨e1, e2⟩ := (checkErase_check hs hd ha hn).of_ok h
  exact ⟨ha, e1, e2⟩

theorem sumSliceAsync_redc {src dst : Tensor} {al be : ℝ} {axis : Int} {redux : Bool} (hs : src.WF) (hd : Tgt N kd .add dst) :
    AllT (Task1.Redc N kd) (sumSliceAsync al src be dst axis redux) := by
  unfold sumSliceAsync
  refine AllT.bind fun _ h1 => AllT.bind fun _ h2 => AllT.bind fun _ h3 => AllT.bind fun _ h4 => AllT.bind fun _ h5 => ?_
  have h1 := throwIf_ok h1
  have h2 := throwIf_ok h2
  have h3 := throwIf_ok h3
  have h4 := throwIf_ok h4
  refine sliceReduceLoop_redc hs hd (erase_of hs hd.1 h3 h4 (by omega) h5) fun be S hs i hd t e1 e2 e => ?_
  cases Except.ok.inj e
  refine Redc.of (sz_task1 fun a b => sumSliceKernel_sz b) e2 e1 (by decide) fun hm => accK_task1 fun a => ?_
  have := reduceMode_REDUX hm
  subst this
  exact Acc.accK_add (sumSlice_acc _ _ _ al a)

theorem normSliceAsync_redc {src dst : Tensor} {al be : ℝ} {axis : Int} {redux : Bool} (hs : src.WF) (hd : Tgt N kd .hypot dst) :
    AllT (Task1.Redc N kd) (normSliceAsync al src be dst axis redux) := by
  unfold normSliceAsync
  refine AllT.bind fun _ h1 => AllT.bind fun _ h2 => AllT.bind fun _ h3 => AllT.bind fun _ h4 => AllT.bind fun _ h5 => ?_
  have h1 := throwIf_ok h1
  have h2 := throwIf_ok h2
  have h3 := throwIf_ok h3
  have h4 := throwIf_ok h4
  refine sliceReduceLoop_redc hs hd (erase_of hs hd.1 h3 h4 (by omega) h5) fun be S hs i hd t e1 e2 e => ?_
  cases Except.ok.inj e
  refine Redc.of (sz_task1 fun a b => normSliceKernel_sz b) e2 e1 (by decide) fun hm => accK_task1 fun a => ?_
  have := reduceMode_REDUX hm
  subst this
  exact Acc.accK_hyp (normSlice_acc _ _ _ al a)

theorem sumprodSliceAsync_redc {src src2 dst : Tensor} {al be : ℝ} {axis : Int} {redux : Bool} (hs : src.WF) (hd : Tgt N kd .add dst) :
    AllT (Task1.Redc N kd) (sumprodSliceAsync al src src2 be dst axis redux) := by
  unfold sumprodSliceAsync
  refine AllT.bind fun _ h0 => AllT.bind fun _ h1 => AllT.bind fun _ h2 => AllT.bind fun _ h3 => AllT.bind fun _ h4 => AllT.bind fun _ h5 => ?_
  have h1 := throwIf_ok h1
  have h3 := throwIf_ok h3
  have h4 := throwIf_ok h4
  refine sliceReduceLoop_redc hs hd (erase_of hs hd.1 h3 h4 (by omega) h5) fun be S hs i hd t e1 e2 e => ?_
  rw [M.bind_eq_ok] at e
  obtain ⟨hs2, -, e⟩ := e
  cases Except.ok.inj e
  refine Redc.of (sz_task2 fun a a' b => sumprodSliceKernel_sz b) e2 e1 (by decide) fun hm => accK_task2 fun a a' => ?_
  have := reduceMode_REDUX hm
  subst this
  exact Acc.accK_add (sumprodSlice_acc _ _ _ al a a')

theorem sumFiberAsync_redc {src dst : Tensor} {al be : ℝ} {axis bt : Int} {redux : Bool} (hs : src.WF) (hd : Tgt N kd .add dst) :
    AllT (Task1.Redc N kd) (sumFiberAsync al src be dst axis bt redux) := by
  unfold sumFiberAsync
  refine AllT.bind fun _ h1 => AllT.bind fun _ h2 => AllT.bind fun _ h3 => AllT.bind fun _ h4 => AllT.bind fun _ h5 => AllT.forTasks fun i hi => AllT.bind fun h hh =>
    AllT.bind fun j0 hj0 => AllT.bind fun js hjs => AllT.bind fun h' hh' => AllT.bind fun Sd hSd => ?_
  dsimp only
  obtain ⟨hb, rfl⟩ := handleAt_eq hh'
  obtain ⟨-, rfl⟩ := tshapeAt_eq hSd
  obtain ⟨k1, k2⟩ := hd.2 _ hb
  have hk : N (dst.id, lin dst.grid (j0 :: js)) = kOf (src.tshapeL i) axis.toNat * ((dst.tshape (j0 :: js)).drop 1).prod := by
    have h1 := throwIf_ok h1
    have h3 := throwIf_ok h3
    have h4 := throwIf_ok h4
    have hdn : 0 < dst.ndim := by
      have := hb.length
      rw [hd.1.grid_length] at this
      simp only [List.length_cons] at this
      rw [Tensor.ndim]
      omega
    have hf : dst.FiberOf src axis.toNat bt.toNat := (checkFiber_check hd.1 hs (by omega) (by omega)).of_ok h5
    have hsi := src.tindex_inBox i
    have hlen : (src.tindex i).length = src.shape.length := by rw [hsi.length, hs.grid_length]
    have hax := hf.axis
    have e : j0 :: js = proj (fiberDims src.shape.length axis.toNat bt.toNat) (src.tindex i) := by
      rw [fiberIdx_eq hlen (by omega), fiberIdx, hlen]
      rw [vget_eq hj0, vslice_eq hjs, Tensor.ndim, List.take_of_length_le (by simp [hlen]; omega)]
    rw [k1, e, (hf.projOf hs).tshape hs hsi, fiberIdx_eq (by rw [hs.tshape_length hsi]) (by omega)]
    rfl
  have task : ∀ m n al be h redux, (submitSumFiber m n (kOf (src.tshapeL i) axis.toNat) ((dst.tshape (j0 :: js)).drop 1).prod al h be (dst.id, lin dst.grid (j0 :: js)) redux : Task1 ℝ).Redc N kd := by
    intro m n al be h redux
    refine Redc.of (sz_task1 fun a b => sumFiberKernel_sz b) k2 hk (by decide) fun hm => accK_task1 fun a => ?_
    have := reduceMode_REDUX hm
    subst this
    exact Acc.accK_add (sumFiber_acc _ _ _ _ al a)
  exact AllT.ite (fun _ => AllT.single (task _ _ _ _ _ _)) fun _ => AllT.single (task _ _ _ _ _ _)

theorem sumprodFiberAsync_redc {src src2 dst : Tensor} {al be : ℝ} {axis : Int} {redux : Bool} (hs : src.WF) (hd : Tgt N kd .add dst) :
    AllT (Task1.Redc N kd) (sumprodFiberAsync al src src2 be dst axis redux) := by
  unfold sumprodFiberAsync
  refine AllT.bind fun _ h0 => AllT.bind fun _ h1 => AllT.bind fun _ h2 => AllT.bind fun _ h3 => AllT.bind fun _ h4 => AllT.bind fun _ h5 => AllT.forTasks fun i hi => AllT.bind fun h hh =>
    AllT.bind fun h' hh' => AllT.bind fun j hj => AllT.bind fun hd' hhd => ?_
  obtain ⟨ho, rfl⟩ := handleL_eq hhd
  obtain ⟨k1, k2⟩ := hd.lin ho
  have hk : N (dst.id, j) = kOf (src.tshapeL i) axis.toNat := by
    have h1 := throwIf_ok h1
    have h3 := throwIf_ok h3
    have h4 := throwIf_ok h4
    have hdn : dst.shape.length = 1 := by simpa [Tensor.ndim] using h1
    obtain ⟨p1, p2⟩ := (checkPair_check hs hd.1 (i := axis.toNat) (j := 0) (by omega) (by rw [Tensor.ndim, hdn]; omega)).of_ok h5
    have hf : dst.FiberOf src axis.toNat 0 := by
      refine ⟨by rw [← Tensor.ndim]; omega, ?_, ?_⟩
      · obtain ⟨x, hx⟩ := List.length_eq_one_iff.1 hdn
        rw [p1, hx]
        simp
      · obtain ⟨x, hx⟩ := List.length_eq_one_iff.1 (hd.1.2.2.trans hdn)
        rw [p2, hx, ← hs.2.2]
        simp
    have hsi := src.tindex_inBox i
    have hlen : (src.tindex i).length = src.shape.length := by rw [hsi.length, hs.grid_length]
    have hax := hf.axis
    have e : [j] = proj (fiberDims src.shape.length axis.toNat 0) (src.tindex i) := by
      rw [fiberIdx_eq hlen (by omega), fiberIdx, vget_eq hj]
      simp
    have hb : InBox dst.grid [j] := by rw [e]; exact (hf.projOf hs).tile_inBox hs hsi
    have k1 := (hd.2 _ hb).1
    have : lin dst.grid [j] = j := by
      cases hg : dst.grid with
      | nil => rw [hg] at hb; exact absurd hb (by simp [InBox])
      | cons g l => simp [lin]
    rw [this] at k1
    rw [k1, e, (hf.projOf hs).tshape hs hsi, fiberIdx_eq (by rw [hs.tshape_length hsi]) (by omega), fiberIdx]
    simp
    rfl
  have task : ∀ m n al be h h' redux, (submitSumprodFiber m n (kOf (src.tshapeL i) axis.toNat) al h h' be (dst.id, j) redux : Task1 ℝ).Redc N kd := by
    intro m n al be h h' redux
    refine Redc.of (sz_task2 fun a a' b => sumprodFiberKernel_sz b) k2 hk (by decide) fun hm => accK_task2 fun a a' => ?_
    have := reduceMode_REDUX hm
    subst this
    exact Acc.accK_add (sumprodFiber_acc _ _ _ al a a')
  exact AllT.ite (fun _ => AllT.single (task _ _ _ _ _ _ _)) fun _ => AllT.single (task _ _ _ _ _ _ _)

theorem NN.mse {f : Buf ℝ → M (Buf ℝ)} {I : Nat → Prop} (h : AccM I f) {b b' : Buf ℝ} (hn : NN b) (e : f b = .ok b') : NN b' := by
  obtain ⟨d, W, hW⟩ := h b b' hn e
  have := hW b rfl fun i hi => (d i hi).2
  rw [this] at e
  cases Except.ok.inj e
  exact hn.pact _ _

theorem maxsumexpAsync_redc {src dst : Tensor} {axis : Int} {redux : Bool} (hs : src.WF) (hd : Tgt N kd .maxsumexp dst) :
    AllT (Task1.Redc N kd) (maxsumexpAsync src dst axis redux) := by
  unfold maxsumexpAsync
  refine AllT.bind fun _ h1 => AllT.bind fun _ h2 => AllT.bind fun _ h3 => AllT.bind fun _ h4 => AllT.bind fun d0 h5 => AllT.bind fun _ h6 => AllT.bind fun b0 h7 => AllT.bind fun _ h8 =>
    AllT.bind fun _ h9 => AllT.forTasks fun i hi => AllT.bind fun h hh => AllT.bind fun g hg => AllT.forTasks fun j hj => AllT.bind fun h' hh' => AllT.bind fun S hS => AllT.single ?_
  have h1 := throwIf_ok h1
  have h3 := throwIf_ok h3
  have h4 := throwIf_ok h4
  have h6 := throwIf_ok h6
  have h8 := throwIf_ok h8
  obtain ⟨ho, rfl⟩ := handleL_eq hh
  obtain ⟨k1, k2⟩ := hd.lin ho
  obtain ⟨hb, rfl⟩ := tshapeAt_eq hS
  have hM : dst.MseOf src axis.toNat := by
    refine (checkMse_check hs hd.1 (by omega) (by omega) ?_ ?_).of_ok h9
    · rw [← vget_eq h5]; simpa using h6
    · rw [← vget_eq h7]; simpa using h8
  have hn : N (dst.id, i) = 2 * (mOf (src.tshape (mseTileIndex (dst.tindex i) axis.toNat j)) axis.toNat * nOf (src.tshape (mseTileIndex (dst.tindex i) axis.toNat j)) axis.toNat) := by
    have hin := dst.tindex_inBox i
    obtain ⟨t, e, ht⟩ := hM.tile hin
    rw [k1, Tensor.tshapeL, e, hM.tshape]
    rw [e] at hb
    have hsl := hM.slice
    change InBox src.grid (t.insertIdx axis.toNat j) at hb
    have hts : dst.sl.tshape t = (src.tshape (t.insertIdx axis.toNat j)).eraseIdx axis.toNat := by rw [← hsl.tshape hs hb, erase_insert]
    rw [List.prod_cons, hts, prod_erase]
    rfl
  generalize src.tshape (mseTileIndex (dst.tindex i) axis.toNat j) = S at hn
  have hacc := fun a => maxsumexp_acc (mOf S axis.toNat) (nOf S axis.toNat) (kOf S axis.toNat) a
  refine ⟨sz_task1 fun a b => maxsumexpKernel_sz b, fun hm => ?_, fun _ rs b b' hnn e => ?_⟩
  · refine ⟨_, k2, fun rs => ?_⟩
    change AccK _ (N (dst.id, i)) _
    rw [hn]
    exact accK_task1 (fun a => (hacc a).accK) rs
  · unfold submitMaxsumexp task1 at e
    dsimp only at e
    split at e
    · exact NN.mse (hacc _) hnn e
    · cases e

theorem clear_mse {h : Handle} : (submitClear h : Task1 ℝ).Redc N kd := by
  have key : ∀ b b' : Buf ℝ, NN b → clearKernel b = .ok b' → NN b' := by
    intro b b' hn e i v hv
    cases Except.ok.inj e
    dsimp only at hv
    split at hv
    · cases hv; exact le_refl _
    · exact hn i v hv
  have sz : ∀ (rs : List (Buf ℝ)) b, SzAt b.size ((submitClear h : Task1 ℝ).fn rs b) := by
    intro rs b
    unfold submitClear task0
    dsimp only
    split
    · exact clearKernel_sz b
    · exact SzAt.error
  refine ⟨sz, fun hm => absurd hm (by simp [submitClear, task0]), fun _ rs b b' hn e => ?_⟩
  unfold submitClear task0 at e
  dsimp only at e
  split at e
  · exact key b b' hn e
  · cases e

theorem clearAsync_mse (T : Tensor) : AllT (Task1.Redc N kd) (clearAsync T : M (List (Task1 ℝ))) := by
  unfold clearAsync loop0
  exact AllT.forTasks fun i _ => AllT.bind fun h _ => AllT.single clear_mse

theorem inv_mse {h : Handle} : (task0 "invalidate" .W h (fun b => .ok b) : Task1 ℝ).Redc N kd := by
  have sz : ∀ (rs : List (Buf ℝ)) b, SzAt b.size ((task0 "invalidate" .W h (fun b => .ok b) : Task1 ℝ).fn rs b) := by
    intro rs b
    unfold task0
    dsimp only
    split
    · exact SzAt.ok rfl
    · exact SzAt.error
  refine ⟨sz, fun hm => absurd hm (by simp [task0]), fun _ rs b b' hn e => ?_⟩
  unfold task0 at e
  dsimp only at e
  split at e
  · cases Except.ok.inj e; exact hn
  · cases e

theorem invalidateAsync_mse (c : Bool) (T : Tensor) : AllT (Task1.Redc N kd) (invalidateAsync c T : M (List (Task1 ℝ))) := by
  unfold invalidateAsync loop0
  exact AllT.ite (fun _ => AllT.forTasks fun i _ => AllT.bind fun h _ => AllT.single inv_mse) fun _ => AllT.nil

end NNTile
