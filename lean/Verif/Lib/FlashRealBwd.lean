import Verif.Lib.FlashReal
/-! Gradients computed by `flash_softmax_gemm_backward`, over the real numbers. -/
namespace NNTile
open Finset
namespace FlashBwd
variable {F : FlashBwd} {z t : AttnDims} {s : Store ℝ} {asBool : ℝ → Bool} {val : ℝ} {q k v m w da : List Nat → ℝ}

set_option maxHeartbeats 1000000 in
theorem unfused_real (h : F.Fits z t) (hr : ∀ T ∈ F.tensors, T.Ready s) (xQ : F.Q.Holds s q) (xK : F.K.Holds s k) (xV : F.V.Holds s v) (xM : F.mask.Holds s m)
    (xm : F.mse.Holds s w) (xA : F.dA.Holds s da) (xs : F.sps.Holds s (fun _ => 0)) (hw : IsMaxSum z (attnMasked (fun I => asBool (m I)) val (attnScore z.D k q)) w) :
    Runs (seqAsync (unfusedBackward asBool val (flashScale z.D) F.Q F.dQ F.K F.dK F.V F.dV F.mask F.mse F.dA F.tmp F.tmpGrad F.sps)) s (F.tensors.map Tensor.id) (fun s' =>
      (∀ i, (F.tens i).Ready s') ∧
      F.dQ.Holds s' (scoreGQ z.D z.S k (attnMasked (fun I => asBool (m I)) 0 (softD z.S (attnWeights z.S (attnMasked (fun I => asBool (m I)) val (attnScore z.D k q))) (headsGA z.D v da)))) ∧
      F.dK.Holds s' (scoreGK z.D z.S q (attnMasked (fun I => asBool (m I)) 0 (softD z.S (attnWeights z.S (attnMasked (fun I => asBool (m I)) val (attnScore z.D k q))) (headsGA z.D v da)))) ∧
      F.dV.Holds s' (headsGV z.S da (attnWeights z.S (attnMasked (fun I => asBool (m I)) val (attnScore z.D k q))))) := by
  have inj : Function.Injective fun i => (F.tens i).id := fun i j e => by
    by_contra hij
    exact h.inj hij e
  have ne : ∀ {i j : Ix}, i ≠ j → (F.tens i).id ≠ (F.tens j).id := fun hij => h.inj hij
  have tm : ∀ i, (F.tens i).id ∈ F.tensors.map Tensor.id := fun i => List.mem_map_of_mem (by rw [tensors_eq]; exact List.mem_map_of_mem i.mem_all)
  have rd : ∀ i, (F.tens i).Ready s := fun i => hr _ (by rw [tensors_eq]; exact List.mem_map_of_mem i.mem_all)
  obtain ⟨q1, q2⟩ := h.heads F.Q (by simp)
  obtain ⟨dq1, dq2⟩ := h.heads F.dQ (by simp)
  obtain ⟨k1, k2⟩ := h.heads F.K (by simp)
  obtain ⟨dk1, dk2⟩ := h.heads F.dK (by simp)
  obtain ⟨v1, v2⟩ := h.heads F.V (by simp)
  obtain ⟨dv1, dv2⟩ := h.heads F.dV (by simp)
  obtain ⟨a1, a2⟩ := h.heads F.dA (by simp)
  obtain ⟨t1, t2⟩ := h.tmp
  obtain ⟨g1, g2⟩ := h.tmpGrad
  obtain ⟨p1, p2⟩ := h.sps
  obtain ⟨m1, m2⟩ := h.mask
  obtain ⟨σ0, eσ⟩ : ∃ σ0 : Ix → Option (List Nat → ℝ), σ0 = fun o => match o with
      | .Q => some q
      | .K => some k
      | .V => some v
      | .mask => some m
      | .dA => some da
      | .sps => some (fun _ => 0)
      | _ => none := ⟨_, rfl⟩
  have h0 : St F.tens s σ0 := by
    refine ⟨rd, fun i v e => ?_⟩
    rw [eσ] at e
    cases i <;> simp only [Option.some.injEq, reduceCtorEq] at e <;> subst e <;> assumption
  rw [unfusedBackward, ← seqAsync_seq]
  refine h0.step inj (i := .tmp) (weights_computes (h.heads F.Q (by simp)) (h.heads F.K (by simp)) h.mask h.mse h.tmp (rd .Q) (rd .K) (rd .mask) (rd .mse) (rd .tmp)
    (h.inj (i := .Q) (j := .tmp) (by decide)) (h.inj (i := .K) (j := .tmp) (by decide)) (h.inj (i := .mask) (j := .tmp) (by decide))
    (h.inj (i := .mse) (j := .tmp) (by decide)) xQ xK xM xm hw) (tm _) fun s1 h1 => ?_
  generalize attnWeights z.S (attnMasked (fun I => asBool (m I)) val (attnScore z.D k q)) = A at h1 ⊢
  refine h1.step inj (i := .dV) (C11_clear (h1.ready .dV)) (tm _) fun s2 h2 => ?_
  refine h2.step inj (i := .dV) (v := headsGV z.S da A) (gemm_computes (tA := .noTrans) (tB := .trans) (nd := 1) (bt := 2) (h2.ready .dA) (h2.ready .tmp)
    (h2.ready .dV) (ne (by decide)) (ne (by decide)) (M := [z.D]) (K := [z.S]) (N := [z.S]) (R := [z.B, z.H]) ⟨rfl, rfl, a1, t1, dv1⟩
    ⟨[t.D], [t.S], [t.S], [t.B, t.H], rfl, rfl, a2, t2, dv2⟩ 1 1 false (fun _ => 0) (h2.hold .dA da (by simp [Function.update_apply, eσ]))
    (h2.hold .tmp A (by simp [Function.update_apply])) (fun _ => h2.hold .dV _ (by simp [Function.update_apply])) ?_) (tm _) fun s3 h3 => ?_
  · intro I hI J hJ b hb
    obtain ⟨i, hi, rfl⟩ := mem_box1 hI
    obtain ⟨j, hj, rfl⟩ := mem_box1 hJ
    obtain ⟨n, h, hn, hh, rfl⟩ := mem_box2 hb
    simp [headsGV, sum_box1]
  refine h3.step inj (i := .tmpGrad) (v := headsGA z.D v da) (gemm_computes (tA := .trans) (tB := .noTrans) (nd := 1) (bt := 2) (h3.ready .V) (h3.ready .dA)
    (h3.ready .tmpGrad) (ne (by decide)) (ne (by decide)) (M := [z.S]) (K := [z.D]) (N := [z.S]) (R := [z.B, z.H]) ⟨rfl, rfl, v1, a1, g1⟩
    ⟨[t.S], [t.D], [t.S], [t.B, t.H], rfl, rfl, v2, a2, g2⟩ 1 0 false (fun _ => 0) (h3.hold .V v (by simp [Function.update_apply, eσ]))
    (h3.hold .dA da (by simp [Function.update_apply, eσ])) (by simp) ?_) (tm _) fun s4 h4 => ?_
  · intro I hI J hJ b hb
    obtain ⟨i, hi, rfl⟩ := mem_box1 hI
    obtain ⟨j, hj, rfl⟩ := mem_box1 hJ
    obtain ⟨n, h, hn, hh, rfl⟩ := mem_box2 hb
    simp [headsGA, sum_box1]
  refine h4.step inj (i := .sps) (C14_sumprod_slice_partial (a := 0) (h4.ready .tmpGrad) (h4.ready .tmp) (h4.ready .sps) (ne (by decide)) (ne (by decide))
    ⟨by simp only [tens]; rw [g1]; simp, by simp only [tens]; rw [p1, g1]; rfl, by simp only [tens]; rw [p2, g2]; rfl⟩
    (by simp only [tens]; rw [g1, t1]) (by simp only [tens]; rw [g2, t2]) 1 1 false (headsGA z.D v da) A (fun _ => 0) (h4.hold .tmpGrad _ (by simp [Function.update_apply]))
    (h4.hold .tmp _ (by simp [Function.update_apply])) (fun _ => h4.hold .sps _ (by simp [Function.update_apply, eσ])))
    (tm _) fun s5 h5 => ?_
  refine h5.step inj (i := .tmpGrad) (C12_add_slice (a := 0) (h5.ready .sps) (h5.ready .tmpGrad) (ne (by decide))
    ⟨by simp only [tens]; rw [g1]; simp, by simp only [tens]; rw [p1, g1]; rfl, by simp only [tens]; rw [p2, g2]; rfl⟩
    (-1) 1 _ (headsGA z.D v da) (h5.hold .sps _ (Function.update_self ..)) (fun _ => h5.hold .tmpGrad _ (by simp [Function.update_apply]))) (tm _) fun s6 h6 => ?_
  refine h6.step inj (i := .tmpGrad) (v := softD z.S A (headsGA z.D v da)) ((C11_prod (h6.ready .tmp) (h6.ready .tmpGrad) ⟨ne (by decide), by simp only [tens]; rw [g1, t1],
    by simp only [tens]; rw [g2, t2]⟩ A _ (h6.hold .tmp A (by simp [Function.update_apply])) (h6.hold .tmpGrad _ (Function.update_self ..))).congr ?_) (tm _) fun s7 h7 => ?_
  · intro I hI
    simp only [tens] at hI ⊢
    rw [g1] at hI
    obtain ⟨i, j, n, h, hi, hj, hn, hh, rfl⟩ := mem_box4 (mem_box.2 hI)
    have e : ∑ x ∈ range z.S, headsGA z.D v da [x, j, n, h] * A [x, j, n, h] = ∑ x ∈ range z.S, A [x, j, n, h] * headsGA z.D v da [x, j, n, h] :=
      sum_congr rfl fun _ _ => mul_comm _ _
    simp [softD, g1, e]
    ring
  have hc := C21_mask_scalar asBool (h7.ready .mask) (h7.ready .tmpGrad) (ne (by decide)) ⟨by simp only [tens]; rw [m1, g1]; simp, by simp only [tens]; rw [m1, g1]; rfl, by simp only [tens]; rw [m2, m1, g2]; rfl⟩ 0 m
    (softD z.S A (headsGA z.D v da)) (h7.hold .mask m (by simp [Function.update_apply, eσ])) (h7.hold .tmpGrad _ (Function.update_self ..))
  have hnd : ((F.tens .tmpGrad).ndim : Int) - (F.tens .mask).ndim = 2 := by simp only [tens, Tensor.ndim, m1, g1]; rfl
  rw [hnd] at hc
  refine h7.step inj (i := .tmpGrad) (v := attnMasked (fun I => asBool (m I)) 0 (softD z.S A (headsGA z.D v da))) (hc.congr ?_) (tm _) fun s8 h8 => ?_
  · intro I hI
    simp only [tens] at hI ⊢
    rw [g1] at hI
    obtain ⟨i, j, n, h, hi, hj, hn, hh, rfl⟩ := mem_box4 (mem_box.2 hI)
    simp only [attnMasked, Tensor.ndim, m1]
    rfl
  obtain ⟨σ8, h8, u1, u2, u3, u4⟩ : ∃ σ8, St F.tens s8 σ8 ∧ σ8 .tmpGrad = some (attnMasked (fun I => asBool (m I)) 0 (softD z.S A (headsGA z.D v da))) ∧ σ8 .K = some k ∧
      σ8 .Q = some q ∧ σ8 .dV = some (headsGV z.S da A) := ⟨_, h8, by simp [Function.update_apply], by simp [Function.update_apply, eσ], by simp [Function.update_apply, eσ],
        by simp [Function.update_apply]⟩
  clear hc h1 h2 h3 h4 h5 h6 h7
  generalize attnMasked (fun I => asBool (m I)) 0 (softD z.S A (headsGA z.D v da)) = dS at u1 ⊢
  refine h8.step inj (i := .dQ) (C11_clear (h8.ready .dQ)) (tm _) fun s9 h9 => ?_
  refine h9.step inj (i := .dQ) (v := scoreGQ z.D z.S k dS) (gemm_computes (tA := .noTrans) (tB := .noTrans) (nd := 1) (bt := 2) (h9.ready .K) (h9.ready .tmpGrad)
    (h9.ready .dQ) (ne (by decide)) (ne (by decide)) (M := [z.D]) (K := [z.S]) (N := [z.S]) (R := [z.B, z.H]) ⟨rfl, rfl, k1, g1, dq1⟩
    ⟨[t.D], [t.S], [t.S], [t.B, t.H], rfl, rfl, k2, g2, dq2⟩ _ 1 false (fun _ => 0) (h9.hold .K k (by simp [Function.update_apply, u2]))
    (h9.hold .tmpGrad dS (by simp [Function.update_apply, u1])) (fun _ => h9.hold .dQ _ (Function.update_self ..)) ?_) (tm _) fun s10 h10 => ?_
  · intro I hI J hJ b hb
    obtain ⟨i, hi, rfl⟩ := mem_box1 hI
    obtain ⟨j, hj, rfl⟩ := mem_box1 hJ
    obtain ⟨n, h, hn, hh, rfl⟩ := mem_box2 hb
    simp [scoreGQ, sum_box1, flashScale_real]
  refine h10.step inj (i := .dK) (C11_clear (h10.ready .dK)) (tm _) fun s11 h11 => ?_
  refine h11.step inj (i := .dK) (v := scoreGK z.D z.S q dS) (gemm_computes (tA := .noTrans) (tB := .trans) (nd := 1) (bt := 2) (h11.ready .Q) (h11.ready .tmpGrad)
    (h11.ready .dK) (ne (by decide)) (ne (by decide)) (M := [z.D]) (K := [z.S]) (N := [z.S]) (R := [z.B, z.H]) ⟨rfl, rfl, q1, g1, dk1⟩
    ⟨[t.D], [t.S], [t.S], [t.B, t.H], rfl, rfl, q2, g2, dk2⟩ _ 1 false (fun _ => 0) (h11.hold .Q q (by simp [Function.update_apply, u3]))
    (h11.hold .tmpGrad dS (by simp [Function.update_apply, u1])) (fun _ => h11.hold .dK _ (Function.update_self ..)) ?_) (tm _) fun s12 h12 => Runs.nil ?_
  · intro I hI J hJ b hb
    obtain ⟨i, hi, rfl⟩ := mem_box1 hI
    obtain ⟨j, hj, rfl⟩ := mem_box1 hJ
    obtain ⟨n, h, hn, hh, rfl⟩ := mem_box2 hb
    simp [scoreGK, sum_box1, flashScale_real]
  exact ⟨h12.ready, h12.hold .dQ _ (by simp [Function.update_apply]), h12.hold .dK _ (by simp [Function.update_apply]), h12.hold .dV _ (by simp [Function.update_apply, u4])⟩

/-- All gradients. -/
theorem backward_real (h : F.Fits z t) (hr : ∀ T ∈ F.tensors, T.Ready s) (xQ : F.Q.Holds s q) (xK : F.K.Holds s k) (xV : F.V.Holds s v) (xM : F.mask.Holds s m)
    (xm : F.mse.Holds s w) (xA : F.dA.Holds s da) (xs : F.sps.Holds s (fun _ => 0)) (hw : IsMaxSum z (attnMasked (fun I => asBool (m I)) val (attnScore z.D k q)) w) :
    Runs (flashBackwardAsync asBool val F.Q F.dQ F.K F.dK F.V F.dV F.mask F.mse F.dA F.tmp F.tmpGrad F.sps) s ([F.dQ, F.dK, F.dV, F.sps].map Tensor.id) (fun s' =>
      (∀ T ∈ [F.dQ, F.dK, F.dV, F.sps], T.Ready s') ∧
      F.dQ.Holds s' (scoreGQ z.D z.S k (attnMasked (fun I => asBool (m I)) 0 (softD z.S (attnWeights z.S (attnMasked (fun I => asBool (m I)) val (attnScore z.D k q))) (headsGA z.D v da)))) ∧
      F.dK.Holds s' (scoreGK z.D z.S q (attnMasked (fun I => asBool (m I)) 0 (softD z.S (attnWeights z.S (attnMasked (fun I => asBool (m I)) val (attnScore z.D k q))) (headsGA z.D v da)))) ∧
      F.dV.Holds s' (headsGV z.S da (attnWeights z.S (attnMasked (fun I => asBool (m I)) val (attnScore z.D k q))))) := by
  obtain ⟨s1, e1, -, r1, x1, x2, x3⟩ := (unfused_real h hr xQ xK xV xM xm xA xs hw).exec
  have rd : ∀ i, (F.tens i).Ready s := fun i => hr _ (by rw [tensors_eq]; exact List.mem_map_of_mem i.mem_all)
  obtain ⟨s2, e2, m2⟩ := backward_merge asBool val h (rd .tmp).2 (rd .tmpGrad).2 (by simp) (by simp) e1
  refine Runs.of_exec e2 m2.onlyChanged ⟨?_, m2.holds (T := F.dQ) (by simp) (rd .dQ).1 x1, m2.holds (T := F.dK) (by simp) (rd .dK).1 x2, m2.holds (T := F.dV) (by simp) (rd .dV).1 x3⟩
  intro T hT
  refine m2.ready hT ?_
  simp only [List.mem_cons, List.not_mem_nil, or_false] at hT
  obtain rfl | rfl | rfl | rfl := hT
  exacts [r1 .dQ, r1 .dK, r1 .dV, r1 .sps]

end FlashBwd
end NNTile
