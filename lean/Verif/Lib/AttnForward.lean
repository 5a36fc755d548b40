import Verif.Lib.Attention
/-!
# Forward propagation of attention
-/
namespace NNTile
open Finset

/-- Softmax in place from the maximum and the sum. -/
theorem attnWeights_value {S B H : Nat} {x v : List Nat → ℝ}
    (hv : ∀ I, InBox [S, B, H] I → (∃ l, l < S ∧ v (0 :: I) = x (l :: I)) ∧ (∀ l, l < S → x (l :: I) ≤ v (0 :: I)) ∧
      v (1 :: I) = ∑ l ∈ range S, Real.exp (x (l :: I) - v (0 :: I))) {I : List Nat} (hI : I ∈ box [S, S, B, H]) :
    attnWeights S x I = Real.exp (x I - v (0 :: I.eraseIdx 0)) / v (1 :: I.eraseIdx 0) := by
  obtain ⟨i, j, n, h, hi, hj, hn, hh, rfl⟩ := mem_box4 hI
  obtain ⟨h1, -, h3⟩ := hv [j, n, h] ⟨hj, hn, hh, trivial⟩
  simp only [attnWeights, List.eraseIdx_cons_zero]
  rw [(C19_real_meaning (r := fun l => x [l, j, n, h]) h1 h3).2.2.2 i]

theorem attnMasked_none (D : Nat) (val : ℝ) (k q : List Nat → ℝ) (env : Env) (asIdx : ℝ → Int) :
    attnMasked (maskAt asIdx none env) val (attnScore D k q) = attnScore D k q := by
  funext I
  unfold attnMasked
  split
  · simp [maskAt]
  · next hne =>
    unfold attnScore
    split
    · exact absurd rfl (hne _ _ _ _)
    · rfl

set_option maxHeartbeats 2000000 in
theorem attn_forward {l : Attention ℝ} {z t : AttnDims} (fit : l.Fits z t) {asIdx : ℝ → Int} {en : Bool} (ids : (l.toNet z asIdx en).ids.Nodup) {s : Store ℝ}
    {env : Env} (hv : ValuesHold l.ins s env) (hr : AllReady (l.y.value :: l.temps) s) :
    Runs (l.forwardAsync asIdx en) s (l.y.value.id :: l.temps.map Tensor.id) (fun s' =>
      l.y.value.Holds s' (l.F z asIdx env) ∧ AllReady (l.y.value :: l.temps) s' ∧ (l.toNet z asIdx en).Saved env s') := by
  have sep := Attention.sep ids (out := l.y.value) (by simp [Moments.ids])
  -- no gradients are involved
  have sep' : LSep l.ins [] (l.tens l.y.value) := ⟨sep.inj, sep.vt, by simp, by simp, by simp, by simp⟩
  clear sep
  obtain ⟨m1, m2, m3, m4, m5, m6, m7, m8, m9, m10, m11, m12⟩ := l.mem_ins
  have tm := fun i => l.tens_mem (out := l.y.value) i
  have h0 : LSt l.ins [] (l.tens l.y.value) s env (fun _ _ => 0) (fun _ => none) := ⟨hv, by intro m hm; simp at hm, ⟨l.tens_ready hr, by simp⟩⟩
  obtain ⟨a1, a2, -⟩ := fit.a
  obtain ⟨q1, q2, -⟩ := fit.t4 l.q (by simp)
  obtain ⟨k1, k2, -⟩ := fit.t4 l.k (by simp)
  obtain ⟨v1, v2, -⟩ := fit.t4 l.v (by simp)
  obtain ⟨b1, b2, -⟩ := fit.t4 l.b (by simp)
  obtain ⟨bT1, bT2, -⟩ := fit.tT l.bT (by simp)
  obtain ⟨mse1, mse2⟩ := fit.mse
  obtain ⟨w1, w2, -⟩ := fit.w
  obtain ⟨y1, y2, -⟩ := fit.y
  rw [Attention.forwardAsync, List.append_assoc, List.append_assoc, List.append_assoc]
  refine attnProject_runs sep' h0 (i := .qTv) (j := .qv) rfl rfl (by decide) m4 m1 m8 fit.wq fit.xq (fit.tT l.qT (by simp)) (fit.t4 l.q (by simp))
    (fit.bqkv _ (by simp)) en l.redux (tm _) (tm _) fun s1 σ1 h1 e1 o1 => ?_
  refine attnProject_runs sep' h1 (i := .kTv) (j := .kv) rfl rfl (by decide) m5 m2 m9 fit.wk fit.xk (fit.tT l.kT (by simp)) (fit.t4 l.k (by simp))
    (fit.bqkv _ (by simp)) en l.redux (tm _) (tm _) fun s2 σ2 h2 e2 o2 => ?_
  refine attnProject_runs sep' h2 (i := .vTv) (j := .vv) rfl rfl (by decide) m6 m3 m10 fit.wv fit.xv (fit.tT l.vT (by simp)) (fit.t4 l.v (by simp))
    (fit.bqkv _ (by simp)) en l.redux (tm _) (tm _) fun s3 σ3 h3 e3 o3 => ?_
  change σ1 AI.qv = some (l.Q z env) at e1
  change σ2 AI.kv = some (l.K z env) at e2
  change σ3 AI.vv = some (l.V z env) at e3
  have eq : σ3 AI.qv = some (l.Q z env) := by rw [o3 _ (by decide) (by decide), o2 _ (by decide) (by decide), e1]
  have ek : σ3 AI.kv = some (l.K z env) := by rw [o3 _ (by decide) (by decide), e2]
  clear e1 o1 e2 o2 o3 h1 h2 h0
  have ne : ∀ {i j : AI}, i ≠ j → (l.tens l.y.value i).id ≠ (l.tens l.y.value j).id := fun hij e => hij (sep'.inj e)
  simp only [Attention.heads, Attention.combine, List.cons_append, List.nil_append]
  -- scores
  refine h3.step sep' (i := .av) (v := attnScore z.D (l.K z env) (l.Q z env)) (gemm_computes (tA := .trans) (tB := .noTrans) (nd := 1) (bt := 2) (h3.ready .kv) (h3.ready .qv)
    (h3.ready .av) (ne (by decide)) (ne (by decide)) (M := [z.S]) (K := [z.D]) (N := [z.S]) (R := [z.B, z.H]) ⟨rfl, rfl, k1, q1, a1⟩
    ⟨[t.S], [t.D], [t.S], [t.B, t.H], rfl, rfl, k2, q2, a2⟩ _ 0 l.redux (fun _ => 0) (h3.hold ek) (h3.hold eq) (by simp) ?_) (tm _) fun s4 h4 => ?_
  · intro I hI J hJ b hb
    obtain ⟨i, hi, rfl⟩ := mem_box1 hI
    obtain ⟨j, hj, rfl⟩ := mem_box1 hJ
    obtain ⟨n, h, hn, hh, rfl⟩ := mem_box2 hb
    simp [attnScore, sum_box1, scale_real, fit.headSize]
    ring
  refine h4.step sep' (i := .mse) (C11_clear (h4.ready .mse)) (tm _) fun s5 h5 => ?_
  -- mask
  have mid : ∀ s6 σ6, LSt l.ins [] (l.tens l.y.value) s6 env (fun _ _ => 0) σ6 →
      σ6 .av = some (attnMasked (maskAt asIdx l.mask env) l.val (attnScore z.D (l.K z env) (l.Q z env))) →
      σ6 .mse = some (fun _ => 0) → (∀ o, o ≠ .av → o ≠ .mse → σ6 o = σ3 o) →
      Runs (seqAsync [maxsumexpAsync (α := ℝ) l.a.value l.aMaxsumexp 0 l.redux, softmaxInplaceAsync l.aMaxsumexp 1 l.a.value 0, invalidateAsync en l.aMaxsumexp,
        gemmAsync 1 TransOp.noTrans l.v.value TransOp.noTrans l.a.value 0 l.b.value 1 2 l.redux, transposeAsync 1 l.b.value l.bT.value 3,
        gemmAsync 1 TransOp.noTrans l.w.value TransOp.noTrans l.bT.value 0 l.y.value 2 0 l.redux, invalidateAsync en l.b.value,
        match l.biasOut with
        | some b => addFiberAsync 1 b.value 1 l.y.value 0 0
        | none => .ok []]) s6 (l.y.value.id :: l.temps.map Tensor.id) (fun s' =>
      l.y.value.Holds s' (l.F z asIdx env) ∧ AllReady (l.y.value :: l.temps) s' ∧ (l.toNet z asIdx en).Saved env s') := by
    intro s6 σ6 h6 ea em o6
    have hms : l.aMaxsumexp.MseOf l.a.value 0 := ⟨by rw [a1]; simp, by rw [mse1, a1]; rfl, by rw [mse2, a2]; rfl⟩
    obtain ⟨w, hw, hw'⟩ := C19_maxsumexp_real (h6.ready .av) (h6.ready .mse) (ne (by decide)) hms l.redux _ (h6.hold ea) (h6.hold em)
    refine h6.step sep' (i := .mse) hw (tm _) fun s7 h7 => ?_
    have ea7 : Function.update σ6 AI.mse (some w) .av = some (attnMasked (maskAt asIdx l.mask env) l.val (attnScore z.D (l.K z env) (l.Q z env))) := by rw [Function.update_of_ne (by decide), ea]
    refine h7.step sep' (i := .av) (v := l.A z asIdx env) ((C20_softmax_inplace_bits (a := 0) (h7.ready .mse) (h7.ready .av) (ne (by decide)) hms 1 w _
      (h7.hold (Function.update_self ..)) (h7.hold ea7)).congr ?_) (tm _) fun s8 h8 => ?_
    · intro I hI
      change InBox l.a.value.shape I at hI
      change ∀ I, InBox (l.a.value.shape.eraseIdx 0) I → _ at hw'
      change _ = attnWeights _ _ _
      simp only [Attention.tens] at hw'
      rw [a1] at hI hw'
      rw [attnWeights_value hw' (mem_box.2 hI)]
      simp
    refine h8.inval sep' .mse en (tm _) fun s9 h9 => ?_
    set σ9 := Function.update (Function.update (Function.update σ6 AI.mse (some w)) AI.av (some (l.A z asIdx env))) AI.mse none with hσ9
    have ea9 : σ9 .av = some (l.A z asIdx env) := by rw [hσ9, Function.update_of_ne (by decide), Function.update_self]
    have o9 : ∀ o, o ≠ .av → o ≠ .mse → σ9 o = σ3 o := fun o q1 q2 => by
      rw [hσ9, Function.update_of_ne q2, Function.update_of_ne q1, Function.update_of_ne q2, o6 o q1 q2]
    clear_value σ9
    clear h8 h7 h6 o6 em ea hw hw' ea7
    -- results of the heads
    refine h9.step sep' (i := .bv) (v := l.headsOut z asIdx env) (gemm_computes (tA := .noTrans) (tB := .noTrans) (nd := 1) (bt := 2) (h9.ready .vv) (h9.ready .av) (h9.ready .bv)
      (ne (by decide)) (ne (by decide)) (M := [z.D]) (K := [z.S]) (N := [z.S]) (R := [z.B, z.H]) ⟨rfl, rfl, v1, a1, b1⟩
      ⟨[t.D], [t.S], [t.S], [t.B, t.H], rfl, rfl, v2, a2, b2⟩ 1 0 l.redux (fun _ => 0) (h9.hold ((o9 .vv (by decide) (by decide)).trans e3)) (h9.hold ea9) (by simp) ?_)
      (tm _) fun s10 h10 => ?_
    · intro I hI J hJ b hb
      obtain ⟨i, hi, rfl⟩ := mem_box1 hI
      obtain ⟨j, hj, rfl⟩ := mem_box1 hJ
      obtain ⟨n, h, hn, hh, rfl⟩ := mem_box2 hb
      simp [Attention.headsOut, attnHeads, sum_box1]
    refine h10.step sep' (i := .bTv) (v := fun I => l.headsOut z asIdx env (I.drop 1 ++ I.take 1)) (transpose_computes (nd := 3) (h10.ready .bv) (h10.ready .bTv)
      (ne (by decide)) ⟨by decide, by simp only [Attention.tens]; rw [b1]; simp, by simp only [Attention.tens]; rw [b1, bT1]; rfl, by simp only [Attention.tens]; rw [b2, bT2]; rfl⟩
      (h10.hold (Function.update_self ..)) ?_) (tm _) fun s11 h11 => ?_
    · intro I hI J hJ
      simp only [Attention.tens] at hI hJ
      rw [b1] at hI hJ
      obtain ⟨h, hh, rfl⟩ := mem_box1 hJ
      rfl
    refine h11.step sep' (i := .out) (v := attnCombine z.H z.D (env l.w.value.id) (l.headsOut z asIdx env) (fun _ => 0)) (gemm_computes (tA := .noTrans) (tB := .noTrans) (nd := 2)
      (bt := 0) (h11.value m7).1 (h11.ready .bTv) (h11.ready .out) (sep'.vt _ m7 .out) (ne (by decide)) (M := [z.E]) (K := [z.H, z.D]) (N := [z.S, z.B]) (R := [])
      ⟨rfl, rfl, w1, bT1, y1⟩ ⟨[t.E], [t.H, t.D], [t.S, t.B], [], rfl, rfl, w2, bT2, y2⟩ 1 0 l.redux (fun _ => 0) (h11.value m7).2 (h11.hold (Function.update_self ..))
      (by simp) ?_) (tm _) fun s12 h12 => ?_
    · intro I hI J hJ b hb
      obtain ⟨e, he, rfl⟩ := mem_box1 hI
      obtain ⟨j, n, hj, hn, rfl⟩ := mem_box2 hJ
      obtain rfl := mem_box_nil hb
      simp [attnCombine, sum_box2]
    refine h12.inval sep' .bv en (tm _) fun s13 h13 => ?_
    have fin : ∀ s' σ', LSt l.ins [] (l.tens l.y.value) s' env (fun _ _ => 0) σ' → σ' .out = some (l.F z asIdx env) →
        σ' .bTv = some (fun I => l.headsOut z asIdx env (I.drop 1 ++ I.take 1)) → (∀ o, o ≠ .out → o ≠ .bTv → o ≠ .bv → σ' o = σ9 o) →
        l.y.value.Holds s' (l.F z asIdx env) ∧ AllReady (l.y.value :: l.temps) s' ∧ (l.toNet z asIdx en).Saved env s' := by
      intro s' σ' h' u1 u2 u3
      have f : ∀ {o : AI} {v : List Nat → ℝ}, o ≠ .out → o ≠ .bTv → o ≠ .bv → o ≠ .av → o ≠ .mse → σ3 o = some v → σ' o = some v :=
        fun q1 q2 q3 q4 q5 e => (u3 _ q1 q2 q3).trans ((o9 _ q4 q5).trans e)
      refine ⟨h'.hold u1, l.all_ready h'.ready, h'.hold (i := .qv) (f (by decide) (by decide) (by decide) (by decide) (by decide) eq),
        h'.hold (i := .kv) (f (by decide) (by decide) (by decide) (by decide) (by decide) ek),
        h'.hold (i := .vv) (f (by decide) (by decide) (by decide) (by decide) (by decide) e3), h'.hold (i := .av) ?_, h'.hold (i := .bTv) u2⟩
      rw [u3 _ (by decide) (by decide) (by decide), ea9]
    have e13 : ∀ σ13, σ13 = Function.update (Function.update (Function.update (Function.update σ9 AI.bv (some (l.headsOut z asIdx env))) AI.bTv
        (some fun I => l.headsOut z asIdx env (I.drop 1 ++ I.take 1))) AI.out
        (some (attnCombine z.H z.D (env l.w.value.id) (l.headsOut z asIdx env) (fun _ => 0)))) AI.bv none →
        σ13 .out = some (attnCombine z.H z.D (env l.w.value.id) (l.headsOut z asIdx env) (fun _ => 0)) ∧
        σ13 .bTv = some (fun I => l.headsOut z asIdx env (I.drop 1 ++ I.take 1)) ∧ ∀ o, o ≠ .out → o ≠ .bTv → o ≠ .bv → σ13 o = σ9 o := by
      rintro _ rfl
      refine ⟨by rw [Function.update_of_ne (by decide), Function.update_self],
        by rw [Function.update_of_ne (by decide), Function.update_of_ne (by decide), Function.update_self], fun o q1 q2 q3 => ?_⟩
      rw [Function.update_of_ne q3, Function.update_of_ne q1, Function.update_of_ne q2, Function.update_of_ne q3]
    obtain ⟨c1, c2, c3⟩ := e13 _ rfl
    cases hb : l.biasOut with
    | none =>
      refine LSt.skip (Runs.nil (fin s13 _ h13 ?_ c2 c3))
      rw [c1, Attention.F, hb]
      rfl
    | some b =>
      obtain ⟨bo1, bo2, -⟩ := fit.bo b hb
      have mb := m11 b hb
      refine h13.step sep' (i := .out) (v := l.F z asIdx env)
        ((C13_add_fiber_partial (a := 0) (b := 0) (h13.value mb).1 (h13.ready .out) (sep'.vt _ mb .out)
          ⟨by simp only [Attention.tens]; rw [y1]; simp, by simp only [Attention.tens]; rw [bo1, y1]; rfl, by simp only [Attention.tens]; rw [bo2, y1, y2]; rfl⟩
          1 1 (.inr rfl) _ _ (h13.value mb).2 (fun _ => h13.hold c1)).congr ?_) (tm _) fun s14 h14 => Runs.nil (fin s14 _ h14 (Function.update_self ..) ?_ ?_)
      · intro I hI
        simp only [Attention.tens] at hI
        rw [y1] at hI
        obtain ⟨e, j, n, he, hj, hn, rfl⟩ := mem_box3 (mem_box.2 hI)
        simp [Attention.F, attnCombine, hb, biasAt, fiberIdx]
      · rw [Function.update_of_ne (by decide), c2]
      · intro o q1 q2 q3
        rw [Function.update_of_ne q1, c3 o q1 q2 q3]
  have ea5 : Function.update (Function.update σ3 AI.av (some (attnScore z.D (l.K z env) (l.Q z env)))) AI.mse (some fun _ => 0) .av =
      some (attnScore z.D (l.K z env) (l.Q z env)) := by rw [Function.update_of_ne (by decide), Function.update_self]
  cases hm : l.mask with
  | none =>
    rw [hm, attnMasked_none] at mid
    refine LSt.skip (mid s5 _ h5 ea5 (Function.update_self ..) fun o q1 q2 => ?_)
    rw [Function.update_of_ne q2, Function.update_of_ne q1]
  | some T =>
    have mT := m12 T hm
    obtain ⟨T1, T2⟩ := fit.mask T hm
    have hT : T.LeadOf l.a.value := ⟨by rw [T1, a1]; simp, by rw [T1, a1]; rfl, by rw [T2, T1, a2]; rfl⟩
    have hc := C21_mask_scalar (maskBool asIdx) (h5.value mT).1 (h5.ready .av) (sep'.vt _ mT .av) hT l.val _ _ (h5.value mT).2 (h5.hold ea5)
    have hnd : ((l.tens l.y.value .av).ndim : Int) - (maskMoments T).value.ndim = 2 := by
      simp only [Tensor.ndim, Attention.tens, maskMoments, T1, a1]; rfl
    rw [hnd] at hc
    refine h5.step sep' (i := .av) (v := attnMasked (maskAt asIdx l.mask env) l.val (attnScore z.D (l.K z env) (l.Q z env))) (hc.congr ?_) (tm _) fun s6 h6 =>
      mid s6 _ h6 (Function.update_self ..) ?_ ?_
    · intro I hI
      simp only [Attention.tens] at hI
      rw [a1] at hI
      obtain ⟨i, j, n, h, hi, hj, hn, hh, rfl⟩ := mem_box4 (mem_box.2 hI)
      simp only [attnMasked, hm, maskAt, maskMoments, Tensor.ndim, T1]
      rfl
    · rw [Function.update_of_ne (by decide), Function.update_self]
    · intro o q1 q2
      rw [Function.update_of_ne q1, Function.update_of_ne q2, Function.update_of_ne q1]

end NNTile
