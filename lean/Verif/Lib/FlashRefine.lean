import Verif.Lib.FlashForward
/-! The fused operations of forward propagation do the same as the separate ones. -/
namespace NNTile
variable {α : Type}

section
variable [FP α] {z t : AttnDims} (ft : FlashTiles z t) (fp : FlashPos z t)
include ft fp

theorem scores_tiles {Q K mask tmp : Tensor} (hQ : Q.IsHeads z t) (hK : K.IsHeads z t) (hM : mask.IsMask z t) (hT : tmp.IsScores z t)
    (wQ : Q.WF) (wK : K.WF) (wM : mask.WF) (wT : tmp.WF) (iQ : Q.id ≠ tmp.id) (iK : K.id ≠ tmp.id) (iM : mask.id ≠ tmp.id) {s s' : Store α} (hs : tmp.Alloc s)
    (h00 : FP.eqb (0 : α) 0 = true) (asBool : α → Bool) (ninf : α) (e : Exec (seqAsync (unfusedScores asBool ninf (flashScale z.D) Q K mask tmp)) s s') :
    (∀ k : Handle, k.1 ≠ tmp.id → s' k = s k) ∧ ∀ j i n m, j < z.S / t.S → i < z.S / t.S → n < z.B / t.B → m < z.H / t.H →
      flashScores asBool ninf t.S z.D (t.B * t.H) [t.S, t.S, t.B, t.H].prod (s (K.id, lin K.grid [0, j, n, m])) (s (Q.id, lin Q.grid [0, i, n, m]))
        (s (mask.id, lin mask.grid [j, i])) = .ok (s' (tmp.id, lin tmp.grid [j, i, n, m])) := by
  simp only [unfusedScores] at e
  rw [Exec.cons_iff] at e
  obtain ⟨s1, e1, e2⟩ := e
  rw [Exec.last] at e2
  obtain ⟨f1, k1⟩ := gemm_scores_tile ft fp hK hQ hT wK wQ wT iK iQ hs h00 _ e1
  obtain ⟨f2, k2⟩ := mask_tile ft fp hM hT wM wT iM asBool ninf e2
  refine ⟨fun k hk => by rw [f2 k hk, f1 k hk], fun j i n m hj hi hn hm => ?_⟩
  have a := k1 j i n m hj hi hn hm
  have b := k2 j i n m hj hi hn hm
  rw [f1 (mask.id, _) iM] at b
  rw [ft.D] at a
  rw [flashScores, a, M.bind_ok, b]

theorem weights_tiles {Q K mask mse tmp : Tensor} (hQ : Q.IsHeads z t) (hK : K.IsHeads z t) (hM : mask.IsMask z t) (hm : mse.IsPairs z t) (hT : tmp.IsScores z t)
    (wQ : Q.WF) (wK : K.WF) (wM : mask.WF) (wm : mse.WF) (wT : tmp.WF) (iQ : Q.id ≠ tmp.id) (iK : K.id ≠ tmp.id) (iM : mask.id ≠ tmp.id) (im : mse.id ≠ tmp.id)
    {s s' : Store α} (hs : tmp.Alloc s)
    (h00 : FP.eqb (0 : α) 0 = true) (asBool : α → Bool) (ninf : α) (e : Exec (seqAsync (unfusedWeights asBool ninf (flashScale z.D) Q K mask mse tmp)) s s') :
    (∀ k : Handle, k.1 ≠ tmp.id → s' k = s k) ∧ ∀ j i n m, j < z.S / t.S → i < z.S / t.S → n < z.B / t.B → m < z.H / t.H →
      flashWeights asBool ninf t.S z.D (t.B * t.H) [t.S, t.S, t.B, t.H].prod (s (K.id, lin K.grid [0, j, n, m])) (s (Q.id, lin Q.grid [0, i, n, m]))
        (s (mask.id, lin mask.grid [j, i])) (s (mse.id, lin mse.grid [0, i, n, m])) = .ok (s' (tmp.id, lin tmp.grid [j, i, n, m])) := by
  simp only [unfusedWeights] at e
  rw [Exec.append_iff] at e
  obtain ⟨s1, e1, e2⟩ := e
  rw [Exec.last] at e2
  obtain ⟨f1, k1⟩ := scores_tiles ft fp hQ hK hM hT wQ wK wM wT iQ iK iM hs h00 asBool ninf e1
  obtain ⟨f2, k2⟩ := softmax_tile ft fp hm hT wm wT im e2
  refine ⟨fun k hk => by rw [f2 k hk, f1 k hk], fun j i n m hj hi hn hm => ?_⟩
  have b := k2 j i n m hj hi hn hm
  rw [f1 (mse.id, _) im] at b
  rw [flashWeights, k1 j i n m hj hi hn hm, M.bind_ok, b]

theorem ByTiles.merge {async : M (List (Task1 α))} {dst : Tensor} {gt : List Nat → List (Task1 α)} (h : ByTiles async dst gt) {s s' : Store α}
    (hf : ∀ T, InBox dst.grid T → foldBuf s (gt T) (s (dst.id, lin dst.grid T)) = .ok (s' (dst.id, lin dst.grid T))) :
    ∃ s'', Exec async s s'' ∧ Merge [dst] s s' s'' := by
  obtain ⟨ts, s'', a, b, c, d⟩ := h.run _ hf
  refine ⟨s'', ⟨ts, a, b⟩, ?_, ?_⟩
  · intro T hT i hi
    rw [List.mem_singleton] at hT
    subst hT
    have := c _ (T.tindex_inBox i)
    rwa [Tensor.lin_tindex hi] at this
  · intro k hk
    exact d k (hk dst (by simp))

/-- `flash_maxsumexp`. -/
theorem flash_maxsumexp_merge {Q K mask mse tmp : Tensor} (hQ : Q.IsHeads z t) (hK : K.IsHeads z t) (hM : mask.IsMask z t) (hm : mse.IsPairs z t) (hT : tmp.IsScores z t)
    (wQ : Q.WF) (wK : K.WF) (wM : mask.WF) (wm : mse.WF) (wT : tmp.WF) (iQ : Q.id ≠ tmp.id) (iK : K.id ≠ tmp.id) (iM : mask.id ≠ tmp.id) (im : mse.id ≠ tmp.id)
    (jQ : Q.id ≠ mse.id) (jK : K.id ≠ mse.id) (jM : mask.id ≠ mse.id)
    {s s' : Store α} (hs : tmp.Alloc s)
    (h00 : FP.eqb (0 : α) 0 = true) (asBool : α → Bool) (ninf : α) (e : Exec (seqAsync (unfusedMaxsumexp asBool ninf (flashScale z.D) Q K mask mse tmp)) s s') :
    ∃ s'', Exec (flashMaxsumexpAsync asBool ninf Q K mask mse tmp) s s'' ∧ Merge [mse] s s' s'' := by
  refine ByTiles.merge ft fp (flashMaxsumexp_byTiles ft fp asBool ninf hQ hK hM hm hT jQ jK jM) fun T hT' => ?_
  rw [hm.grid ft fp] at hT'
  obtain ⟨x, i, n, m, hx, hi, hn, hm', rfl⟩ := mem_box4 (mem_box.2 hT')
  obtain rfl : x = 0 := by omega
  simp only [unfusedMaxsumexp] at e
  rw [Exec.append_iff] at e
  obtain ⟨s1, e1, e2⟩ := e
  rw [Exec.last] at e2
  obtain ⟨f1, k1⟩ := scores_tiles ft fp hQ hK hM hT wQ wK wM wT iQ iK iM hs h00 asBool ninf e1
  have k2 := maxsumexp_tiles ft fp hm hT wm wT im.symm e2 hi hn hm'
  rw [f1 (mse.id, _) im] at k2
  rw [← k2]
  refine foldBuf_map (fun j hj b => ?_) _
  rw [List.mem_range] at hj
  have := k1 j i n m hj hi hn hm'
  simp only [submitFlashMaxsumexp, submitMaxsumexp, task1, List.map_cons, List.map_nil, List.set_cons_zero, List.set_cons_succ, List.getD_cons_succ, List.getD_cons_zero,
    flashMaxsumexpKernel, this, M.bind_ok, Task1.inp, reduceCtorEq, if_false, Bool.false_eq_true, Nat.mul_assoc]

/-- `flash_softmax_gemm`. -/
theorem flash_softmax_gemm_merge {Q K V mask mse dst tmp : Tensor} (hQ : Q.IsHeads z t) (hK : K.IsHeads z t) (hV : V.IsHeads z t) (hM : mask.IsMask z t)
    (hm : mse.IsPairs z t) (hd : dst.IsHeads z t) (hT : tmp.IsScores z t)
    (wQ : Q.WF) (wK : K.WF) (wV : V.WF) (wM : mask.WF) (wm : mse.WF) (wd : dst.WF) (wT : tmp.WF)
    (iQ : Q.id ≠ tmp.id) (iK : K.id ≠ tmp.id) (iV : V.id ≠ tmp.id) (iM : mask.id ≠ tmp.id) (im : mse.id ≠ tmp.id) (id : dst.id ≠ tmp.id)
    (jQ : Q.id ≠ dst.id) (jK : K.id ≠ dst.id) (jV : V.id ≠ dst.id) (jM : mask.id ≠ dst.id) (jm : mse.id ≠ dst.id)
    {s s' : Store α} (hs : tmp.Alloc s) (h00 : FP.eqb (0 : α) 0 = true) (h10 : FP.eqb (1 : α) 0 = false) (asBool : α → Bool) (ninf : α)
    (e : Exec (seqAsync (unfusedSoftmaxGemm asBool ninf (flashScale z.D) Q K V mask mse dst tmp)) s s') :
    ∃ s'', Exec (flashSoftmaxGemmAsync asBool ninf Q K V mask mse dst tmp) s s'' ∧ Merge [dst] s s' s'' := by
  refine ByTiles.merge ft fp (flashSoftmaxGemm_byTiles ft fp asBool ninf hQ hK hV hM hm hd hT jQ jK jV jM jm) fun T hT' => ?_
  have hT'' := hT'
  rw [hd.grid ft fp] at hT'
  obtain ⟨x, i, n, m, hx, hi, hn, hm', rfl⟩ := mem_box4 (mem_box.2 hT')
  obtain rfl : x = 0 := by omega
  simp only [unfusedSoftmaxGemm] at e
  rw [Exec.append_iff] at e
  obtain ⟨s1, e1, e2⟩ := e
  rw [Exec.cons_iff] at e2
  obtain ⟨s2, e2, e3⟩ := e2
  rw [Exec.last] at e3
  obtain ⟨f1, k1⟩ := weights_tiles ft fp hQ hK hM hm hT wQ wK wM wm wT iQ iK iM im hs h00 asBool ninf e1
  have k2 := (clear_byTiles dst).tile e2 hT''
  have f2 := fun (k : Handle) (hk : k.1 ≠ dst.id) => (clear_byTiles dst).frame e2 hk
  have k3 := (gemm_heads_tiles ft fp hV hT hd wV wT wd jV id.symm _ _ e3).2 i n m hi hn hm'
  rw [f1 (dst.id, _) id] at k2
  simp only [foldBuf] at k2
  rw [M.bind_eq_ok] at k2
  obtain ⟨b, k2, k2'⟩ := k2
  cases k2'
  rw [← k3]
  simp only [foldBuf]
  have k2' : (submitClear (α := α) (dst.id, lin dst.grid [0, i, n, m])).fn (List.map s (submitClear (α := α) (dst.id, lin dst.grid [0, i, n, m])).reads)
      ((submitClear (α := α) (dst.id, lin dst.grid [0, i, n, m])).inp (s (dst.id, lin dst.grid [0, i, n, m]))) = .ok (s2 (dst.id, lin dst.grid [0, i, n, m])) := k2
  rw [k2', M.bind_ok]
  refine foldBuf_map (fun j hj b => ?_) _
  rw [List.mem_range] at hj
  have := k1 j i n m hj hi hn hm'
  simp only [submitFlashSoftmaxGemm, submitGemm, task2, List.map_cons, List.map_nil, List.set_cons_zero, List.set_cons_succ, List.getD_cons_succ, List.getD_cons_zero,
    flashSoftmaxGemmKernel, this, M.bind_ok, Task1.inp, reduceCtorEq, if_false, Bool.false_eq_true, reduceMode, h10, ite_self, TransOp.sel, f2 (V.id, _) jV, f1 (V.id, _) iV,
    f2 (tmp.id, _) id.symm, ft.D]

end
end NNTile
