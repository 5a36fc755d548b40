import Verif.Lib.FlashBwdRun
import Verif.Lib.AttnBackward
/-! Values computed by the fused operations, over the real numbers. -/
namespace NNTile
open Finset

theorem flashScale_real (D : Nat) : flashScale (α := ℝ) D = 1 / √(D : ℝ) := rfl

theorem Runs.exec {α : Type} {p : M (List (Task1 α))} {s : Store α} {ids : List Nat} {P : Store α → Prop} (h : Runs p s ids P) : ∃ s', Exec p s s' ∧ OnlyChanged ids s s' ∧ P s' := by
  obtain ⟨ts, s', h1, h2, h3, h4⟩ := h
  exact ⟨s', ⟨ts, h1, h2⟩, h3, h4⟩

theorem Runs.of_exec {α : Type} {p : M (List (Task1 α))} {s s' : Store α} {ids : List Nat} {P : Store α → Prop} (h : Exec p s s') (h' : OnlyChanged ids s s') (hP : P s') : Runs p s ids P := by
  obtain ⟨ts, h1, h2⟩ := h
  exact ⟨ts, s', h1, h2, h', hP⟩

theorem Runs.append' {α : Type} {ps qs : List (M (List (Task1 α)))} {s : Store α} {ids ids' : List Nat} {P Q : Store α → Prop} (h : Runs (seqAsync ps) s ids' Q)
    (hi : ∀ i ∈ ids', i ∈ ids) (k : ∀ s', OnlyChanged ids' s s' → Q s' → Runs (seqAsync qs) s' ids P) : Runs (seqAsync (ps ++ qs)) s ids P := by
  obtain ⟨s1, e1, e2, e3⟩ := h.exec
  obtain ⟨s2, f1, f2, f3⟩ := (k s1 e2 e3).exec
  exact Runs.of_exec (Exec.append_iff.2 ⟨s1, e1, f1⟩) (((e2.mono hi).trans f2).mono (by simp)) f3

theorem Merge.onlyChanged {α : Type} {Ts : List Tensor} {s s' s'' : Store α} (h : Merge Ts s s' s'') : OnlyChanged (Ts.map Tensor.id) s s'' := by
  intro k hk
  refine h.2 k fun T hT e => hk (List.mem_map.2 ⟨T, hT, e.1.symm⟩)

theorem Merge.holds {α : Type} {Ts : List Tensor} {s s' s'' : Store α} (h : Merge Ts s s' s'') {T : Tensor} (hT : T ∈ Ts) (hw : T.WF) {x : List Nat → α} (hx : T.Holds s' x) :
    T.Holds s'' x := by
  intro I hI
  have := hx I hI
  rwa [Tensor.get, Tensor.hOf, ← h.1 T hT _ (show _ < T.ntiles from lin_lt (hw.tileIdx_inBox hI))] at this

theorem Merge.ready {α : Type} {Ts : List Tensor} {s s' s'' : Store α} (h : Merge Ts s s' s'') {T : Tensor} (hT : T ∈ Ts) (hr : T.Ready s') : T.Ready s'' :=
  ⟨hr.1, fun i hi => by rw [h.1 T hT i hi]; exact hr.2 i hi⟩

section
variable {z t : AttnDims} {Q K V mask mse tmp dst : Tensor} {s : Store ℝ} {asBool : ℝ → Bool} {val : ℝ} {q k v m w : List Nat → ℝ}

theorem scores_computes (hQ : Q.IsHeads z t) (hK : K.IsHeads z t) (hM : mask.IsMask z t) (hT : tmp.IsScores z t) (rQ : Q.Ready s) (rK : K.Ready s) (rM : mask.Ready s)
    (rT : tmp.Ready s) (iQ : Q.id ≠ tmp.id) (iK : K.id ≠ tmp.id) (iM : mask.id ≠ tmp.id) (xQ : Q.Holds s q) (xK : K.Holds s k) (xM : mask.Holds s m) :
    Computes (seqAsync (unfusedScores asBool val (flashScale z.D) Q K mask tmp)) s tmp (attnMasked (fun I => asBool (m I)) val (attnScore z.D k q)) := by
  obtain ⟨q1, q2⟩ := hQ
  obtain ⟨k1, k2⟩ := hK
  obtain ⟨m1, m2⟩ := hM
  obtain ⟨t1, t2⟩ := hT
  refine Computes.then (v := attnScore z.D k q) (gemm_computes (tA := .trans) (tB := .noTrans) (nd := 1) (bt := 2) rK rQ rT iK iQ (M := [z.S]) (K := [z.D]) (N := [z.S])
    (R := [z.B, z.H]) ⟨rfl, rfl, k1, q1, t1⟩ ⟨[t.S], [t.D], [t.S], [t.B, t.H], rfl, rfl, k2, q2, t2⟩ _ 0 false (fun _ => 0) xK xQ (by simp) ?_) fun s1 c1 x1 r1 => ?_
  · intro I hI J hJ b hb
    obtain ⟨i, hi, rfl⟩ := mem_box1 hI
    obtain ⟨j, hj, rfl⟩ := mem_box1 hJ
    obtain ⟨n, h, hn, hh, rfl⟩ := mem_box2 hb
    simp [attnScore, sum_box1, flashScale_real]
    ring
  have hc := C21_mask_scalar asBool (c1.ready rM (by simpa using iM)) r1 iM ⟨by rw [m1, t1]; simp, by rw [m1, t1]; rfl, by rw [m2, m1, t2]; rfl⟩ val m _
    (c1.holds xM (by simpa using iM)) x1
  have hnd : (tmp.ndim : Int) - mask.ndim = 2 := by simp only [Tensor.ndim, m1, t1]; rfl
  rw [hnd] at hc
  refine Computes.then (hc.congr (w := attnMasked (fun I => asBool (m I)) val (attnScore z.D k q)) ?_) fun s2 c2 x2 r2 => Computes.nil x2 r2
  intro I hI
  rw [t1] at hI
  obtain ⟨i, j, n, h, hi, hj, hn, hh, rfl⟩ := mem_box4 (mem_box.2 hI)
  simp only [attnMasked, Tensor.ndim, m1]
  rfl

theorem weights_computes (hQ : Q.IsHeads z t) (hK : K.IsHeads z t) (hM : mask.IsMask z t) (hm : mse.IsPairs z t) (hT : tmp.IsScores z t) (rQ : Q.Ready s) (rK : K.Ready s)
    (rM : mask.Ready s) (rm : mse.Ready s) (rT : tmp.Ready s) (iQ : Q.id ≠ tmp.id) (iK : K.id ≠ tmp.id) (iM : mask.id ≠ tmp.id) (im : mse.id ≠ tmp.id) (xQ : Q.Holds s q)
    (xK : K.Holds s k) (xM : mask.Holds s m) (xm : mse.Holds s w) (hw : IsMaxSum z (attnMasked (fun I => asBool (m I)) val (attnScore z.D k q)) w) :
    Computes (seqAsync (unfusedWeights asBool val (flashScale z.D) Q K mask mse tmp)) s tmp
      (attnWeights z.S (attnMasked (fun I => asBool (m I)) val (attnScore z.D k q))) := by
  refine Runs.computes (Runs.append' (scores_computes hQ hK hM hT rQ rK rM rT iQ iK iM xQ xK xM).runs (by simp) fun s1 c1 x1 => ?_)
  obtain ⟨m1, m2⟩ := hm
  obtain ⟨t1, t2⟩ := hT
  have hms : mse.MseOf tmp 0 := ⟨by rw [t1]; simp, by rw [m1, t1]; rfl, by rw [m2, t2]; rfl⟩
  refine (Computes.then ((C20_softmax_inplace_bits (a := 0) (c1.ready rm (by simpa using im)) x1.2 im hms 1 w _ (c1.holds xm (by simpa using im)) x1.1).congr ?_)
    fun s2 c2 x2 r2 => Computes.nil x2 r2).runs
  intro I hI
  rw [t1] at hI
  rw [attnWeights_value hw (mem_box.2 hI)]
  simp

theorem maxsumexp_real (ft : FlashTiles z t) (hQ : Q.IsHeads z t) (hK : K.IsHeads z t) (hM : mask.IsMask z t) (hm : mse.IsPairs z t) (hT : tmp.IsScores z t)
    (rQ : Q.Ready s) (rK : K.Ready s) (rM : mask.Ready s) (rm : mse.Ready s) (rT : tmp.Ready s) (iQ : Q.id ≠ tmp.id) (iK : K.id ≠ tmp.id) (iM : mask.id ≠ tmp.id)
    (im : mse.id ≠ tmp.id) (jQ : Q.id ≠ mse.id) (jK : K.id ≠ mse.id) (jM : mask.id ≠ mse.id) (xQ : Q.Holds s q) (xK : K.Holds s k) (xM : mask.Holds s m)
    (xm : mse.Holds s (fun _ => 0)) (asBool : ℝ → Bool) (val : ℝ) :
    ∃ w, Computes (flashMaxsumexpAsync asBool val Q K mask mse tmp) s mse w ∧ IsMaxSum z (attnMasked (fun I => asBool (m I)) val (attnScore z.D k q)) w := by
  obtain ⟨s1, e1, c1, x1, r1⟩ := (scores_computes (asBool := asBool) (val := val) hQ hK hM hT rQ rK rM rT iQ iK iM xQ xK xM).runs.exec
  have hms : mse.MseOf tmp 0 := ⟨by rw [hT.1]; simp, by rw [hm.1, hT.1]; rfl, by rw [hm.2, hT.2]; rfl⟩
  obtain ⟨w, hw, hw'⟩ := C19_maxsumexp_real r1 (c1.ready rm (by simpa using im)) im.symm hms false _ x1 (c1.holds xm (by simpa using im))
  obtain ⟨s2, e2, c2, x2, r2⟩ := hw.runs.exec
  obtain ⟨s3, e3, m3⟩ := flash_maxsumexp_merge ft (hQ.pos rQ.1) hQ hK hM hm hT rQ.1 rK.1 rM.1 rm.1 rT.1 iQ iK iM im jQ jK jM rT.2 (by simp) asBool val
    (Exec.append_iff.2 ⟨s1, e1, Exec.last.2 e2⟩)
  refine ⟨w, (Runs.of_exec e3 m3.onlyChanged ⟨m3.holds (by simp) rm.1 x2, m3.ready (by simp) r2⟩).computes, ?_⟩
  rw [hT.1] at hw'
  exact hw'

theorem softmax_gemm_real (ft : FlashTiles z t) (hQ : Q.IsHeads z t) (hK : K.IsHeads z t) (hV : V.IsHeads z t) (hM : mask.IsMask z t)
    (hm : mse.IsPairs z t) (hd : dst.IsHeads z t) (hT : tmp.IsScores z t)
    (rQ : Q.Ready s) (rK : K.Ready s) (rV : V.Ready s) (rM : mask.Ready s) (rm : mse.Ready s) (rd : dst.Ready s) (rT : tmp.Ready s)
    (iQ : Q.id ≠ tmp.id) (iK : K.id ≠ tmp.id) (iV : V.id ≠ tmp.id) (iM : mask.id ≠ tmp.id) (im : mse.id ≠ tmp.id) (id : dst.id ≠ tmp.id)
    (jQ : Q.id ≠ dst.id) (jK : K.id ≠ dst.id) (jV : V.id ≠ dst.id) (jM : mask.id ≠ dst.id) (jm : mse.id ≠ dst.id)
    (xQ : Q.Holds s q) (xK : K.Holds s k) (xV : V.Holds s v) (xM : mask.Holds s m) (xm : mse.Holds s w) (asBool : ℝ → Bool) (val : ℝ)
    (hw : IsMaxSum z (attnMasked (fun I => asBool (m I)) val (attnScore z.D k q)) w) :
    Computes (flashSoftmaxGemmAsync asBool val Q K V mask mse dst tmp) s dst
      (attnHeads z.S v (attnWeights z.S (attnMasked (fun I => asBool (m I)) val (attnScore z.D k q)))) := by
  obtain ⟨s1, e1, c1, x1, r1⟩ := (weights_computes (asBool := asBool) (val := val) hQ hK hM hm hT rQ rK rM rm rT iQ iK iM im xQ xK xM xm hw).runs.exec
  obtain ⟨s2, e2, c2, x2, r2⟩ := (C11_clear (c1.ready rd (by simpa using id))).runs.exec
  have iV' := iV
  have hg := gemm_computes (s := s2) (tA := .noTrans) (tB := .noTrans) (nd := 1) (bt := 2) (c2.ready (c1.ready rV (by simpa using iV)) (by simpa using jV))
    (c2.ready r1 (by simpa using id.symm)) r2 jV id.symm (M := [z.D]) (K := [z.S]) (N := [z.S]) (R := [z.B, z.H]) ⟨rfl, rfl, hV.1, hT.1, hd.1⟩
    ⟨[t.D], [t.S], [t.S], [t.B, t.H], rfl, rfl, hV.2, hT.2, hd.2⟩ 1 1 false (fun _ => 0) (c2.holds (c1.holds xV (by simpa using iV)) (by simpa using jV))
    (c2.holds x1 (by simpa using id.symm)) (fun _ => x2)
    (F := attnHeads z.S v (attnWeights z.S (attnMasked (fun I => asBool (m I)) val (attnScore z.D k q)))) (by
      intro I hI J hJ b hb
      obtain ⟨i, hi, rfl⟩ := mem_box1 hI
      obtain ⟨j, hj, rfl⟩ := mem_box1 hJ
      obtain ⟨n, h, hn, hh, rfl⟩ := mem_box2 hb
      simp [attnHeads, sum_box1])
  obtain ⟨s3, e3, c3, x3, r3⟩ := hg.runs.exec
  obtain ⟨s4, e4, m4⟩ := flash_softmax_gemm_merge ft (hQ.pos rQ.1) hQ hK hV hM hm hd hT rQ.1 rK.1 rV.1 rM.1 rm.1 rd.1 rT.1 iQ iK iV iM im id jQ jK jV jM jm rT.2 (by simp) (by simp)
    asBool val (Exec.append_iff.2 ⟨s1, e1, Exec.cons_iff.2 ⟨s2, e2, Exec.last.2 e3⟩⟩)
  exact (Runs.of_exec e4 m4.onlyChanged ⟨m4.holds (by simp) rd.1 x3, m4.ready (by simp) r3⟩).computes

end

/-- The gradients. -/
theorem heads_grad (z : AttnDims) (allowed : List Nat → Bool) (val : ℝ) (q k v da : List Nat → ℝ) :
    IsHeadsGrad z allowed val q k v da
      (scoreGQ z.D z.S k (attnMasked allowed 0 (softD z.S (attnWeights z.S (attnMasked allowed val (attnScore z.D k q))) (headsGA z.D v da))))
      (scoreGK z.D z.S q (attnMasked allowed 0 (softD z.S (attnWeights z.S (attnMasked allowed val (attnScore z.D k q))) (headsGA z.D v da))))
      (headsGV z.S da (attnWeights z.S (attnMasked allowed val (attnScore z.D k q)))) := by
  intro cq ck cv q' k' v' hq hk hv
  have hA := heads_vel hv (soft_vel (masked_vel allowed val (score_vel hk hq)))
  refine ⟨_, hA.2, ?_⟩
  rw [heads_adjoint, soft_adjoint, masked_adjoint, score_adjoint]
  ring

end NNTile
