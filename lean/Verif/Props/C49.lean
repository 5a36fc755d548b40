import Verif.Lib.FlashRealBwd
import Verif.Lib.FlashSplit
import Verif.Lib.Store
/-!
# C49: the fused operations of FlashAttention

First, without any assumption about the arithmetic: each fused operation leaves in its results exactly the bits that the sequence of separate operations leaves there, and, unlike
that sequence, it does not touch the big temporary tensors. Then the values over the real numbers.
-/
namespace NNTile
open Finset
variable {α : Type} [FP α]

/-- `flash_maxsumexp` does the same as `gemm`, `mask_scalar`, `maxsumexp`. -/
theorem C49_maxsumexp {z t : AttnDims} (ft : FlashTiles z t) {Q K mask mse tmp : Tensor} (hQ : Q.IsHeads z t) (hK : K.IsHeads z t) (hM : mask.IsMask z t) (hm : mse.IsPairs z t)
    (hT : tmp.IsScores z t) (wf : ∀ T ∈ [Q, K, mask, mse, tmp], T.WF) (ids : ([Q, K, mask, mse, tmp].map Tensor.id).Nodup) {s s' : Store α} (hs : tmp.Alloc s)
    (h00 : FP.eqb (0 : α) 0 = true) (asBool : α → Bool) (ninf : α) (e : Exec (seqAsync (unfusedMaxsumexp asBool ninf (flashScale z.D) Q K mask mse tmp)) s s') :
    ∃ s'', Exec (flashMaxsumexpAsync asBool ninf Q K mask mse tmp) s s'' ∧ Merge [mse] s s' s'' := by
  simp only [List.map_cons, List.map_nil, List.nodup_cons, List.mem_cons, List.not_mem_nil, or_false, not_or] at ids
  obtain ⟨⟨-, -, a1, a2⟩, ⟨-, b1, b2⟩, ⟨c1, c2⟩, d1, -⟩ := ids
  exact flash_maxsumexp_merge ft (hQ.pos (wf _ (by simp))) hQ hK hM hm hT (wf _ (by simp)) (wf _ (by simp)) (wf _ (by simp)) (wf _ (by simp)) (wf _ (by simp)) a2 b2 c2 d1 a1 b1 c1 hs h00
    asBool ninf e

/-- `flash_softmax_gemm` does the same as `gemm`, `mask_scalar`, `softmax_inplace`, `clear`, `gemm`. -/
theorem C49_softmax_gemm {z t : AttnDims} (ft : FlashTiles z t) {Q K V mask mse dst tmp : Tensor} (hQ : Q.IsHeads z t) (hK : K.IsHeads z t) (hV : V.IsHeads z t)
    (hM : mask.IsMask z t) (hm : mse.IsPairs z t) (hd : dst.IsHeads z t) (hT : tmp.IsScores z t) (wf : ∀ T ∈ [Q, K, V, mask, mse, dst, tmp], T.WF)
    (ids : ([Q, K, V, mask, mse, dst, tmp].map Tensor.id).Nodup) {s s' : Store α} (hs : tmp.Alloc s) (h00 : FP.eqb (0 : α) 0 = true) (h10 : FP.eqb (1 : α) 0 = false)
    (asBool : α → Bool) (ninf : α) (e : Exec (seqAsync (unfusedSoftmaxGemm asBool ninf (flashScale z.D) Q K V mask mse dst tmp)) s s') :
    ∃ s'', Exec (flashSoftmaxGemmAsync asBool ninf Q K V mask mse dst tmp) s s'' ∧ Merge [dst] s s' s'' := by
  simp only [List.map_cons, List.map_nil, List.nodup_cons, List.mem_cons, List.not_mem_nil, or_false, not_or] at ids
  obtain ⟨⟨-, -, -, -, a1, a2⟩, ⟨-, -, -, b1, b2⟩, ⟨-, -, c1, c2⟩, ⟨-, d1, d2⟩, ⟨e1, e2⟩, f1, -⟩ := ids
  exact flash_softmax_gemm_merge ft (hQ.pos (wf _ (by simp))) hQ hK hV hM hm hd hT (wf _ (by simp)) (wf _ (by simp)) (wf _ (by simp)) (wf _ (by simp)) (wf _ (by simp)) (wf _ (by simp))
    (wf _ (by simp)) a2 b2 c2 d2 e2 f1 a1 b1 c1 d1 e1 hs h00 h10 asBool ninf e

/-- `flash_softmax_gemm_backward` does the same as its twelve separate operations. -/
theorem C49_backward {F : FlashBwd} {z t : AttnDims} (h : F.Fits z t) {s s' : Store α} (hs : F.tmp.Alloc s) (hs' : F.tmpGrad.Alloc s) (h00 : FP.eqb (0 : α) 0 = true)
    (h10 : FP.eqb (1 : α) 0 = false) (asBool : α → Bool) (ninf : α)
    (e : Exec (seqAsync (unfusedBackward asBool ninf (flashScale z.D) F.Q F.dQ F.K F.dK F.V F.dV F.mask F.mse F.dA F.tmp F.tmpGrad F.sps)) s s') :
    ∃ s'', Exec (flashBackwardAsync asBool ninf F.Q F.dQ F.K F.dK F.V F.dV F.mask F.mse F.dA F.tmp F.tmpGrad F.sps) s s'' ∧ Merge [F.dQ, F.dK, F.dV, F.sps] s s' s'' :=
  FlashBwd.backward_merge asBool ninf h hs hs' h00 h10 e

/-- The tasks with two results each of the code do the same as tasks with one result each. -/
theorem C49_two_outputs {F : FlashBwd} {z t : AttnDims} (h : F.Fits z t) (asBool : α → Bool) (ninf : α) :
    ∃ ts ts1, flashBackwardTasks asBool ninf F.Q F.dQ F.K F.dK F.V F.dV F.mask F.mse F.dA F.tmp F.tmpGrad F.sps = .ok ts ∧
      flashBackwardAsync asBool ninf F.Q F.dQ F.K F.dK F.V F.dV F.mask F.mse F.dA F.tmp F.tmpGrad F.sps = .ok ts1 ∧ ∀ s : Store α, runAll ts s = runAll1 ts1 s :=
  FlashBwd.split_ok asBool ninf h

/-- Over the reals, from zeros: `flash_maxsumexp` leaves the largest masked score and the sum of exponents relative to it, for each query. -/
theorem C49_maxsumexp_real {z t : AttnDims} (ft : FlashTiles z t) {Q K mask mse tmp : Tensor} (hQ : Q.IsHeads z t) (hK : K.IsHeads z t) (hM : mask.IsMask z t)
    (hm : mse.IsPairs z t) (hT : tmp.IsScores z t) {s : Store ℝ} (hr : ∀ T ∈ [Q, K, mask, mse, tmp], T.Ready s) (ids : ([Q, K, mask, mse, tmp].map Tensor.id).Nodup)
    {q k m : List Nat → ℝ} (xQ : Q.Holds s q) (xK : K.Holds s k) (xM : mask.Holds s m) (xm : mse.Holds s (fun _ => 0)) (asBool : ℝ → Bool) (val : ℝ) :
    ∃ w, Computes (flashMaxsumexpAsync asBool val Q K mask mse tmp) s mse w ∧ IsMaxSum z (attnMasked (fun I => asBool (m I)) val (attnScore z.D k q)) w := by
  simp only [List.map_cons, List.map_nil, List.nodup_cons, List.mem_cons, List.not_mem_nil, or_false, not_or] at ids
  obtain ⟨⟨-, -, a1, a2⟩, ⟨-, b1, b2⟩, ⟨c1, c2⟩, d1, -⟩ := ids
  exact maxsumexp_real ft hQ hK hM hm hT (hr _ (by simp)) (hr _ (by simp)) (hr _ (by simp)) (hr _ (by simp)) (hr _ (by simp)) a2 b2 c2 d1 a1 b1 c1 xQ xK xM xm asBool val

/-- Over the reals: `flash_softmax_gemm` leaves the results of the heads. -/
theorem C49_softmax_gemm_real {z t : AttnDims} (ft : FlashTiles z t) {Q K V mask mse dst tmp : Tensor} (hQ : Q.IsHeads z t) (hK : K.IsHeads z t) (hV : V.IsHeads z t)
    (hM : mask.IsMask z t) (hm : mse.IsPairs z t) (hd : dst.IsHeads z t) (hT : tmp.IsScores z t) {s : Store ℝ} (hr : ∀ T ∈ [Q, K, V, mask, mse, dst, tmp], T.Ready s)
    (ids : ([Q, K, V, mask, mse, dst, tmp].map Tensor.id).Nodup) {q k v m w : List Nat → ℝ} (xQ : Q.Holds s q) (xK : K.Holds s k) (xV : V.Holds s v) (xM : mask.Holds s m)
    (xm : mse.Holds s w) (asBool : ℝ → Bool) (val : ℝ) (hw : IsMaxSum z (attnMasked (fun I => asBool (m I)) val (attnScore z.D k q)) w) :
    Computes (flashSoftmaxGemmAsync asBool val Q K V mask mse dst tmp) s dst
      (attnHeads z.S v (attnWeights z.S (attnMasked (fun I => asBool (m I)) val (attnScore z.D k q)))) := by
  simp only [List.map_cons, List.map_nil, List.nodup_cons, List.mem_cons, List.not_mem_nil, or_false, not_or] at ids
  obtain ⟨⟨-, -, -, -, a1, a2⟩, ⟨-, -, -, b1, b2⟩, ⟨-, -, c1, c2⟩, ⟨-, d1, d2⟩, ⟨e1, e2⟩, f1, -⟩ := ids
  exact softmax_gemm_real ft hQ hK hV hM hm hd hT (hr _ (by simp)) (hr _ (by simp)) (hr _ (by simp)) (hr _ (by simp)) (hr _ (by simp)) (hr _ (by simp))
    (hr _ (by simp)) a2 b2 c2 d2 e2 f1 a1 b1 c1 d1 e1 xQ xK xV xM xm asBool val hw

/-- Over the reals, from zeros in the tensor of sums: `flash_softmax_gemm_backward` leaves the gradients with respect to queries, keys and values and changes nothing else but the
tensor of sums. -/
theorem C49_backward_real {F : FlashBwd} {z t : AttnDims} (h : F.Fits z t) {s : Store ℝ} (hr : ∀ T ∈ F.tensors, T.Ready s) {q k v m w da : List Nat → ℝ} (xQ : F.Q.Holds s q)
    (xK : F.K.Holds s k) (xV : F.V.Holds s v) (xM : F.mask.Holds s m) (xm : F.mse.Holds s w) (xA : F.dA.Holds s da) (xs : F.sps.Holds s (fun _ => 0)) (asBool : ℝ → Bool)
    (val : ℝ) (hw : IsMaxSum z (attnMasked (fun I => asBool (m I)) val (attnScore z.D k q)) w) :
    ∃ dq dk dv, IsHeadsGrad z (fun I => asBool (m I)) val q k v da dq dk dv ∧
      Runs (flashBackwardAsync asBool val F.Q F.dQ F.K F.dK F.V F.dV F.mask F.mse F.dA F.tmp F.tmpGrad F.sps) s [F.dQ.id, F.dK.id, F.dV.id, F.sps.id] (fun s' =>
        F.dQ.Holds s' dq ∧ F.dK.Holds s' dk ∧ F.dV.Holds s' dv ∧ ∀ T ∈ [F.dQ, F.dK, F.dV, F.sps], T.Ready s') :=
  ⟨_, _, _, heads_grad z _ val q k v da, (FlashBwd.backward_real h hr xQ xK xV xM xm xA xs hw).imp (fun _ h => h) fun _ _ h => ⟨h.2.1, h.2.2.1, h.2.2.2, h.1⟩⟩

/-! ### Examples: four positions in tiles of two, two heads, head size three -/

def flashExDims : AttnDims := ⟨6, 6, 6, 4, 2, 2, 3⟩
def flashExTile : AttnDims := ⟨3, 3, 3, 2, 1, 1, 3⟩
def flashExHeads (i : Nat) : Tensor := ⟨i, [3, 4, 2, 2], [3, 2, 1, 1]⟩
def flashExScores (i : Nat) : Tensor := ⟨i, [4, 4, 2, 2], [2, 2, 1, 1]⟩
def flashExMask : Tensor := ⟨3, [4, 4], [2, 2]⟩
def flashExPairs : Tensor := ⟨4, [2, 4, 2, 2], [2, 2, 1, 1]⟩
def flashExSums : Tensor := ⟨8, [4, 2, 2], [2, 1, 1]⟩
def flashEx : FlashBwd := ⟨flashExHeads 0, flashExHeads 9, flashExHeads 1, flashExHeads 10, flashExHeads 2, flashExHeads 11, flashExMask, flashExPairs, flashExHeads 5,
  flashExScores 6, flashExScores 7, flashExSums⟩

theorem flashEx_tiles : FlashTiles flashExDims flashExTile := ⟨rfl, by decide, by decide, by decide⟩
theorem flashEx_wf : ∀ T ∈ flashEx.tensors, T.WF := by
  simp [flashEx, FlashBwd.tensors, flashExHeads, flashExScores, flashExMask, flashExPairs, flashExSums, Tensor.WF, Pos]
theorem flashEx_fits : flashEx.Fits flashExDims flashExTile where
  heads := by simp [flashEx, Tensor.IsHeads, flashExHeads, flashExDims, flashExTile]
  mask := ⟨rfl, rfl⟩
  mse := ⟨rfl, rfl⟩
  tmp := ⟨rfl, rfl⟩
  tmpGrad := ⟨rfl, rfl⟩
  sps := ⟨rfl, rfl⟩
  tiles := flashEx_tiles
  wf := flashEx_wf
  ids := by decide

/-- All hypotheses are met by memories with any contents of queries, keys, values and mask: `flash_maxsumexp`, then `flash_softmax_gemm`, then
`flash_softmax_gemm_backward`. -/
example (q k v m da : List Nat → ℝ) (asBool : ℝ → Bool) (val : ℝ) : ∃ (s : Store ℝ) (w : List Nat → ℝ),
    Computes (flashMaxsumexpAsync asBool val flashEx.Q flashEx.K flashEx.mask flashEx.mse flashEx.tmp) s flashEx.mse w ∧
    ∃ (s' : Store ℝ) (dq dk dv : List Nat → ℝ), flashEx.mse.Holds s' w ∧
      Computes (flashSoftmaxGemmAsync asBool val flashEx.Q flashEx.K flashEx.V flashEx.mask flashEx.mse flashEx.dQ flashEx.tmp) s' flashEx.dQ
        (attnHeads 4 v (attnWeights 4 (attnMasked (fun I => asBool (m I)) val (attnScore 3 k q)))) ∧
      IsHeadsGrad flashExDims (fun I => asBool (m I)) val q k v da dq dk dv ∧
      Runs (flashBackwardAsync asBool val flashEx.Q flashEx.dQ flashEx.K flashEx.dK flashEx.V flashEx.dV flashEx.mask flashEx.mse flashEx.dA flashEx.tmp flashEx.tmpGrad flashEx.sps) s'
        [9, 10, 11, 8] (fun s'' => flashEx.dQ.Holds s'' dq ∧ flashEx.dK.Holds s'' dk ∧ flashEx.dV.Holds s'' dv ∧
          ∀ T ∈ [flashEx.dQ, flashEx.dK, flashEx.dV, flashEx.sps], T.Ready s'') := by
  have mk : ∀ w : List Nat → ℝ, ∃ s : Store ℝ, (∀ T ∈ flashEx.tensors, T.Ready s) ∧ flashEx.Q.Holds s q ∧ flashEx.K.Holds s k ∧ flashEx.V.Holds s v ∧ flashEx.mask.Holds s m ∧
      flashEx.mse.Holds s w ∧ flashEx.dA.Holds s da ∧ flashEx.sps.Holds s (fun _ => 0) := by
    intro w
    have h := storeOf_spec (α := ℝ) [(flashEx.Q, q), (flashEx.K, k), (flashEx.V, v), (flashEx.mask, m), (flashEx.mse, w), (flashEx.dA, da), (flashEx.tmp, fun _ => 0),
      (flashEx.tmpGrad, fun _ => 0), (flashEx.sps, fun _ => 0), (flashEx.dQ, fun _ => 0), (flashEx.dK, fun _ => 0), (flashEx.dV, fun _ => 0)] (fun p hp => flashEx_wf p.1 (by
        have := List.mem_map_of_mem (f := Prod.fst) hp
        exact this)) (by simp [flashEx, flashExHeads, flashExScores, flashExMask, flashExPairs, flashExSums])
    generalize storeOf _ = s at h
    simp only [List.forall_mem_cons, List.not_mem_nil, IsEmpty.forall_iff, implies_true, and_true] at h
    obtain ⟨a1, a2, a3, a4, a5, a6, a7, a8, a9, a10, a11, a12⟩ := h
    refine ⟨s, ?_, a1.2, a2.2, a3.2, a4.2, a5.2, a6.2, a9.2⟩
    simp only [FlashBwd.tensors, List.forall_mem_cons, List.not_mem_nil, IsEmpty.forall_iff, implies_true, and_true]
    exact ⟨a1.1, a2.1, a3.1, a4.1, a5.1, a6.1, a7.1, a8.1, a9.1, a10.1, a11.1, a12.1⟩
  obtain ⟨s, r, x1, x2, x3, x4, x5, x6, x7⟩ := mk (fun _ => 0)
  have sub : ∀ {L : List Tensor} {s : Store ℝ}, L ⊆ flashEx.tensors → (∀ T ∈ flashEx.tensors, T.Ready s) → ∀ T ∈ L, T.Ready s := fun h hr T hT => hr T (h hT)
  have hh := flashEx_fits.heads
  obtain ⟨w, c, hw⟩ := C49_maxsumexp_real flashEx_tiles (hh flashEx.Q (by simp)) (hh flashEx.K (by simp)) flashEx_fits.mask flashEx_fits.mse flashEx_fits.tmp
    (sub (by simp [FlashBwd.tensors]) r) (by decide) x1 x2 x4 x5 asBool val
  refine ⟨s, w, c, ?_⟩
  obtain ⟨s', r, x1, x2, x3, x4, x5, x6, x7⟩ := mk w
  obtain ⟨dq, dk, dv, g1, g2⟩ := C49_backward_real flashEx_fits r x1 x2 x3 x4 x5 x6 x7 asBool val hw
  exact ⟨s', dq, dk, dv, x5, C49_softmax_gemm_real flashEx_tiles (hh flashEx.Q (by simp)) (hh flashEx.K (by simp)) (hh flashEx.V (by simp)) flashEx_fits.mask flashEx_fits.mse
    (hh flashEx.dQ (by simp)) flashEx_fits.tmp (sub (by simp [FlashBwd.tensors]) r) (by decide) x1 x2 x3 x4 x5 asBool val hw, g1, g2⟩

/-- The separate operations whose execution the first three theorems assume can be executed, here those for the weights. -/
example (asBool : ℝ → Bool) (val : ℝ) : ∃ s s' : Store ℝ, Exec (seqAsync (unfusedScores asBool val (flashScale 3) flashEx.Q flashEx.K flashEx.mask flashEx.tmp)) s s' := by
  have h := storeOf_spec (α := ℝ) [(flashEx.Q, fun _ => 1), (flashEx.K, fun _ => 1), (flashEx.mask, fun _ => 1), (flashEx.tmp, fun _ => 0)] (fun p hp => flashEx_wf p.1 (by
        have := List.mem_map_of_mem (f := Prod.fst) hp
        simp only [List.map_cons, List.map_nil, List.mem_cons, List.not_mem_nil, or_false] at this
        simp only [FlashBwd.tensors, List.mem_cons, List.not_mem_nil, or_false]
        tauto)) (by simp [flashEx, flashExHeads, flashExScores, flashExMask])
  generalize storeOf _ = s at h
  simp only [List.forall_mem_cons, List.not_mem_nil, IsEmpty.forall_iff, implies_true, and_true] at h
  obtain ⟨a1, a2, a3, a4⟩ := h
  have hh := flashEx_fits.heads
  obtain ⟨s', e, -⟩ := (scores_computes (asBool := asBool) (val := val) (hh flashEx.Q (by simp)) (hh flashEx.K (by simp)) flashEx_fits.mask flashEx_fits.tmp a1.1 a2.1 a3.1 a4.1
    (by decide) (by decide) (by decide) a1.2 a2.2 a3.2).runs.exec
  exact ⟨s, s', e⟩

end NNTile
