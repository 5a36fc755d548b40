import Verif.Lib.FlashLayerForward
/-!
# Backward propagation of FlashAttention
-/
namespace NNTile
open Finset

/-- The arguments of `flash_softmax_gemm_backward` in the layer. -/
def Attention.flashBwd (l : Attention ℝ) (T : Tensor) : FlashBwd :=
  ⟨l.q.value, l.q.grad, l.k.value, l.k.grad, l.v.value, l.v.grad, T, l.aMaxsumexp, l.b.grad, l.a.value, l.a.grad, l.aSumprodSlice⟩

theorem flashBwd_fits {l : Attention ℝ} {z t : AttnDims} (fit : l.Fits z t) (ft : FlashTiles z t) {T out : Tensor} (hm : l.mask = some T)
    (sep : LSep l.ins l.ins (l.tens out)) (wf : ∀ i, (l.tens out i).WF) (wT : T.WF) : (l.flashBwd T).Fits z t := by
  have mT := l.mem_ins.2.2.2.2.2.2.2.2.2.2.2 T hm
  have hq := attn_heads fit (m := l.q) (by simp)
  have hk := attn_heads fit (m := l.k) (by simp)
  have hv := attn_heads fit (m := l.v) (by simp)
  have hb := attn_heads fit (m := l.b) (by simp)
  refine ⟨?_, fit.mask T hm, fit.mse, ⟨fit.a.1, fit.a.2.1⟩, fit.a.2.2 (fit.required _ (by simp)), fit.sps, ft, ?_, ?_⟩
  · simp only [Attention.flashBwd, List.forall_mem_cons, List.not_mem_nil, IsEmpty.forall_iff, implies_true, and_true]
    exact ⟨hq.1, hq.2, hk.1, hk.2, hv.1, hv.2, hb.2⟩
  · intro U hU
    have hU : U ∈ [l.q.value, l.k.value, l.v.value, T, l.aMaxsumexp, l.b.grad, l.a.value, l.a.grad, l.aSumprodSlice, l.q.grad, l.k.grad, l.v.grad] := hU
    simp only [List.mem_cons, List.not_mem_nil, or_false] at hU
    obtain rfl | rfl | rfl | rfl | rfl | rfl | rfl | rfl | rfl | rfl | rfl | rfl := hU
    exacts [wf .qv, wf .kv, wf .vv, wT, wf .mse, wf .bg, wf .av, wf .ag, wf .sps, wf .qg, wf .kg, wf .vg]
  · have nd : (([.qv, .kv, .vv, .mse, .bg, .av, .ag, .sps, .qg, .kg, .vg] : List AI).map fun i => (l.tens out i).id).Nodup := List.Nodup.map sep.inj (by decide)
    change ([l.q.value.id, l.k.value.id, l.v.value.id] ++ T.id :: [l.aMaxsumexp.id, l.b.grad.id, l.a.value.id, l.a.grad.id, l.aSumprodSlice.id, l.q.grad.id, l.k.grad.id, l.v.grad.id]).Nodup
    rw [List.nodup_middle, List.nodup_cons]
    refine ⟨fun e => ?_, nd⟩
    have : T.id ∈ ([.qv, .kv, .vv, .mse, .bg, .av, .ag, .sps, .qg, .kg, .vg] : List AI).map fun i => (l.tens out i).id := e
    obtain ⟨j, -, e⟩ := List.mem_map.1 this
    exact sep.vt _ mT j e.symm

noncomputable section

set_option maxHeartbeats 2000000 in
theorem flash_backward {l : Attention ℝ} {z t : AttnDims} (fit : l.Fits z t) (ft : FlashTiles z t) {T : Tensor} (hm : l.mask = some T) {asIdx : ℝ → Int} {en : Bool} (ids : (l.toFlashNet z asIdx en).ids.Nodup) {s : Store ℝ}
    {env : Env} {dy : List Nat → ℝ} {g0 : Env} (hv : ValuesHold l.ins s env) (hs : (l.toFlashNet z asIdx en).Saved env s) (hr : AllReady l.temps s) (yr : l.y.grad.Ready s)
    (yh : l.y.grad.Holds s dy) (hg : GradsHold l.ins s g0) :
    Runs (l.flashBackwardAsync asIdx en) s (l.ins.flatMap Moments.gradIds ++ l.temps.map Tensor.id) (fun s' =>
      AllReady l.temps s' ∧ GradsHold l.ins s' (fun i J => g0 i J + l.G z asIdx env dy i J)) := by
  have ry := fit.required l.y (by simp)
  rw [Attention.toFlashNet_ids] at ids
  have sep := Attention.sep (l := l) (z := z) (asIdx := asIdx) (en := en) ids (out := l.y.grad) (by simp [Moments.ids, Moments.gradIds, ry])
  obtain ⟨m1, m2, m3, m4, m5, m6, m7, m8, m9, m10, m11, m12⟩ := l.mem_ins
  have tm : ∀ i : AI, i ≠ .out → (l.tens l.y.grad i).id ∈ l.ins.flatMap Moments.gradIds ++ l.temps.map Tensor.id :=
    fun i hi => List.mem_append_right _ (l.tens_mem' hi)
  have gm : ∀ m ∈ l.ins, ∀ i ∈ m.gradIds, i ∈ l.ins.flatMap Moments.gradIds ++ l.temps.map Tensor.id :=
    fun m hm i hi => List.mem_append_left _ (List.mem_flatMap.2 ⟨m, hm, hi⟩)
  have rd : AllReady (l.y.grad :: l.temps) s := by
    intro T hT
    rcases List.mem_cons.1 hT with rfl | hT
    · exact yr
    · exact hr T hT
  obtain ⟨sq, sk, sv, ⟨w, sw, hw⟩, sb⟩ := hs
  obtain ⟨σ0, eσ⟩ : ∃ σ0 : AI → Option (List Nat → ℝ), σ0 = fun o => match o with
      | .out => some dy
      | .qv => some (l.Q z env)
      | .kv => some (l.K z env)
      | .vv => some (l.V z env)
      | .mse => some w
      | .bTv => some (fun I => l.headsOut z asIdx env (I.drop 1 ++ I.take 1))
      | _ => none := ⟨_, rfl⟩
  have h0 : LSt l.ins l.ins (l.tens l.y.grad) s env g0 σ0 := by
    refine ⟨hv, hg, ⟨l.tens_ready rd, fun i v e => ?_⟩⟩
    rw [eσ] at e
    cases i <;> simp only [Option.some.injEq, reduceCtorEq] at e <;> subst e <;> assumption
  have e0 : σ0 .out = some dy := by rw [eσ]
  have eq : σ0 .qv = some (l.Q z env) := by rw [eσ]
  have ek : σ0 .kv = some (l.K z env) := by rw [eσ]
  have ev : σ0 .vv = some (l.V z env) := by rw [eσ]
  have ea : σ0 .mse = some w := by rw [eσ]
  have eb : σ0 .bTv = some (fun I => l.headsOut z asIdx env (I.drop 1 ++ I.take 1)) := by rw [eσ]
  clear eσ sq sk sv sw sb
  have ne : ∀ {i j : AI}, i ≠ j → (l.tens l.y.grad i).id ≠ (l.tens l.y.grad j).id := fun hij e => hij (sep.inj e)
  have req := fit.required
  have ra := req l.a (by simp)
  have rq := req l.q (by simp)
  have rk := req l.k (by simp)
  have rv := req l.v (by simp)
  have rb := req l.b (by simp)
  have rbT := req l.bT (by simp)
  obtain ⟨a1, a2, a3⟩ := fit.a
  obtain ⟨q1, q2, q3⟩ := fit.t4 l.q (by simp)
  obtain ⟨k1, k2, k3⟩ := fit.t4 l.k (by simp)
  obtain ⟨v1, v2, v3⟩ := fit.t4 l.v (by simp)
  obtain ⟨b1, b2, b3⟩ := fit.t4 l.b (by simp)
  obtain ⟨bT1, bT2, bT3⟩ := fit.tT l.bT (by simp)
  obtain ⟨sps1, sps2⟩ := fit.sps
  obtain ⟨w1, w2, w3⟩ := fit.w
  obtain ⟨y1, y2, y3⟩ := fit.y
  obtain ⟨a3, a4⟩ := a3 ra
  obtain ⟨q3, q4⟩ := q3 rq
  obtain ⟨k3, k4⟩ := k3 rk
  obtain ⟨v3, v4⟩ := v3 rv
  obtain ⟨b3, b4⟩ := b3 rb
  obtain ⟨bT3, bT4⟩ := bT3 rbT
  obtain ⟨y3, y4⟩ := y3 ry
  simp only [Attention.flashBackwardAsync, List.append_assoc, Attention.combineBackward, Attention.flashHeadsBackward, List.cons_append, List.nil_append, ra, rq, rk, rv, rb, rbT, hm]
  -- bias
  refine h0.accOpt sep m11 (c := fiberG [z.E, z.S, z.B] 0 dy) (p := fun b => sumFiberAsync 1 l.y.grad 1 b.grad 0 0 l.redux) (fun b hb hr r1 r2 => ?_)
    (fun m hm => gm m (m11 m hm)) fun s1 h1 => ?_
  · obtain ⟨c1, c2⟩ := (fit.bo b hb).2.2 hr
    refine (C15_sum_fiber (a := 0) (b := 0) (h0.ready .out) r1 (fun e => sep.gt b (m11 b hb) hr .out e.symm)
      ⟨by simp only [Attention.tens]; rw [y3]; simp, by simp only [Attention.tens]; rw [c1, y3]; rfl, by simp only [Attention.tens]; rw [c2, y3, y4]; rfl⟩
      1 1 l.redux dy _ (h0.hold e0) (fun _ => r2)).congr fun I _ => ?_
    simp only [Attention.tens]
    rw [y3]
    simp [fiberG]
  -- output weights
  refine h1.acc sep m7 (c := combGW z.S z.B dy (l.headsOut z asIdx env)) (fun hr r1 r2 => ?_) (gm l.w m7) fun s2 h2 => ?_
  · obtain ⟨w3, w4⟩ := w3 hr
    refine gemm_computes (tA := .noTrans) (tB := .trans) (nd := 2) (bt := 0) (h1.ready .out) (h1.ready .bTv) r1 (fun e => sep.gt _ m7 hr .out e.symm)
      (fun e => sep.gt _ m7 hr .bTv e.symm) (M := [z.E]) (K := [z.S, z.B]) (N := [z.H, z.D]) (R := []) ⟨rfl, rfl, y3, bT1, w3⟩
      ⟨[t.E], [t.S, t.B], [t.H, t.D], [], rfl, rfl, y4, bT2, w4⟩ 1 1 l.redux _ (h1.hold e0) (h1.hold eb) (fun _ => r2) fun I hI J hJ b hb => ?_
    obtain ⟨e, he, rfl⟩ := mem_box1 hI
    obtain ⟨h, d, hh, hd, rfl⟩ := mem_box2 hJ
    obtain rfl := mem_box_nil hb
    simp [combGW, sum_box2]
    ring
  refine h2.inval sep .bTv en (tm _ (by decide)) fun s3 h3 => ?_
  -- results of the heads
  refine LSt.when_true rfl (h3.step sep (i := .bTg) (v := fun I => l.dB z env dy (I.drop 1 ++ I.take 1)) (gemm_computes (tA := .trans) (tB := .noTrans) (nd := 1) (bt := 0)
    (h3.value m7).1 (h3.ready .out) (h3.ready .bTg) (sep.vt _ m7 .bTg) (ne (by decide)) (M := [z.H, z.D]) (K := [z.E]) (N := [z.S, z.B]) (R := []) ⟨rfl, rfl, w1, y3, bT3⟩
    ⟨[t.H, t.D], [t.E], [t.S, t.B], [], rfl, rfl, w2, y4, bT4⟩ 1 0 l.redux (fun _ => 0) (h3.value m7).2 (h3.hold (i := .out) (v := dy) (by simp [Function.update_apply, e0])) (by simp) ?_)
    (tm _ (by decide)) fun s4 h4 => ?_)
  · intro I hI J hJ b hb
    obtain ⟨h, d, hh, hd, rfl⟩ := mem_box2 hI
    obtain ⟨j, n, hj, hn, rfl⟩ := mem_box2 hJ
    obtain rfl := mem_box_nil hb
    simp [Attention.dB, combGB, sum_box1]
  refine LSt.when_true rfl (h4.step sep (i := .bg) (v := l.dB z env dy) (transpose_computes (nd := 1) (h4.ready .bTg) (h4.ready .bg)
      (ne (by decide)) ⟨by decide, by simp only [Attention.tens]; rw [bT3]; simp, by simp only [Attention.tens]; rw [bT3, b3]; rfl, by simp only [Attention.tens]; rw [bT4, b4]; rfl⟩
      (h4.hold (Function.update_self ..)) ?_) (tm _ (by decide)) fun s5 h5 => ?_)
  · intro I hI J hJ
    simp only [Attention.tens] at hI hJ
    rw [bT3] at hI hJ
    obtain ⟨h, hh, rfl⟩ := mem_box1 hI
    rfl
  refine h5.inval sep .bTg en (tm _ (by decide)) fun s6 h6 => ?_
  set σ6 := Function.update (Function.update (Function.update (Function.update σ0 AI.bTv none) AI.bTg (some fun I => l.dB z env dy (I.drop 1 ++ I.take 1))) AI.bg
    (some (l.dB z env dy))) AI.bTg none with hσ6
  have f6 : ∀ o, o ≠ .bTv → o ≠ .bTg → o ≠ .bg → σ6 o = σ0 o := by
    intro o o1 o2 o3
    simp [hσ6, Function.update_apply, o1, o2, o3]
  have eb6 : σ6 .bg = some (l.dB z env dy) := by simp [hσ6, Function.update_apply]
  clear_value σ6
  clear h0 h1 h2 h3 h4 h5 hσ6 eb
  replace eq := (f6 .qv (by decide) (by decide) (by decide)).trans eq
  replace ek := (f6 .kv (by decide) (by decide) (by decide)).trans ek
  replace ev := (f6 .vv (by decide) (by decide) (by decide)).trans ev
  replace ea := (f6 .mse (by decide) (by decide) (by decide)).trans ea
  clear f6 e0
  have mT := m12 T hm
  have hF := flashBwd_fits fit ft hm sep (fun i => (h6.ready i).1) (h6.value mT).1.1
  refine h6.step sep (i := .sps) (C11_clear (h6.ready .sps)) (tm _ (by decide)) fun s7 h7 => ?_
  have f7 : ∀ {o : AI} {v : List Nat → ℝ}, o ≠ .sps → σ6 o = some v → (l.tens l.y.grad o).Holds s7 v := fun ho e => h7.hold (by rw [Function.update_of_ne ho, e])
  have es : l.scores z asIdx env = attnMasked (fun I => maskBool asIdx (env (maskMoments T).value.id I)) l.val (attnScore z.D (l.K z env) (l.Q z env)) := by
    rw [Attention.scores, hm]
    rfl
  have hB := FlashBwd.backward_real (asBool := maskBool asIdx) (val := l.val) hF (s := s7) (by
      intro U hU
      have hU : U ∈ [l.q.value, l.k.value, l.v.value, T, l.aMaxsumexp, l.b.grad, l.a.value, l.a.grad, l.aSumprodSlice, l.q.grad, l.k.grad, l.v.grad] := hU
      simp only [List.mem_cons, List.not_mem_nil, or_false] at hU
      obtain rfl | rfl | rfl | rfl | rfl | rfl | rfl | rfl | rfl | rfl | rfl | rfl := hU
      exacts [h7.ready .qv, h7.ready .kv, h7.ready .vv, (h7.value mT).1, h7.ready .mse, h7.ready .bg, h7.ready .av, h7.ready .ag, h7.ready .sps, h7.ready .qg, h7.ready .kg,
        h7.ready .vg]) (f7 (o := .qv) (by decide) eq) (f7 (o := .kv) (by decide) ek) (f7 (o := .vv) (by decide) ev) (h7.value mT).2 (f7 (o := .mse) (by decide) ea)
    (f7 (o := .bg) (by decide) eb6) (h7.hold (i := .sps) (Function.update_self ..)) (by rw [← es]; exact hw)
  have eS : attnMasked (fun I => maskBool asIdx (env (maskMoments T).value.id I)) 0 (softD z.S (l.A z asIdx env) (headsGA z.D (l.V z env) (l.dB z env dy))) = l.dS z asIdx env dy := by
    rw [Attention.dS, hm]
    rfl
  rw [← es] at hB
  change Runs _ _ _ (fun s' => _ ∧ Tensor.Holds _ s' (scoreGQ z.D z.S _ (attnMasked _ 0 (softD z.S (l.A z asIdx env) (headsGA z.D (l.V z env) (l.dB z env dy))))) ∧
    Tensor.Holds _ s' (scoreGK z.D z.S _ (attnMasked _ 0 (softD z.S (l.A z asIdx env) (headsGA z.D (l.V z env) (l.dB z env dy))))) ∧ Tensor.Holds _ s' (headsGV z.S _ (l.A z asIdx env))) at hB
  rw [eS] at hB
  set σ7 := Function.update (Function.update (Function.update (Function.update σ6 AI.sps none) AI.qg (some (l.dQ z asIdx env dy))) AI.kg (some (l.dK z asIdx env dy))) AI.vg
    (some (l.dV z asIdx env dy)) with hσ7
  have g1 : σ7 .qg = some (l.dQ z asIdx env dy) := by simp [hσ7, Function.update_apply]
  have g2 : σ7 .kg = some (l.dK z asIdx env dy) := by simp [hσ7, Function.update_apply]
  have g3 : σ7 .vg = some (l.dV z asIdx env dy) := by simp [hσ7, Function.update_apply]
  have g4 : σ7 .sps = none := by simp [hσ7, Function.update_apply]
  refine h7.stepRuns sep [.qg, .kg, .vg, .sps] (σ' := σ7) hB ?_ ?_ ?_ ?_ fun s16 h16 => ?_
  · simp only [List.forall_mem_cons, List.not_mem_nil, IsEmpty.forall_iff, implies_true, and_true]
    exact ⟨tm _ (by decide), tm _ (by decide), tm _ (by decide), tm _ (by decide)⟩
  · intro s' h i hi
    simp only [List.mem_cons, List.not_mem_nil, or_false] at hi
    obtain rfl | rfl | rfl | rfl := hi
    exacts [h.1 _ (by simp [Attention.flashBwd, Attention.tens]), h.1 _ (by simp [Attention.flashBwd, Attention.tens]), h.1 _ (by simp [Attention.flashBwd, Attention.tens]),
      h.1 _ (by simp [Attention.flashBwd, Attention.tens])]
  · intro i hi
    simp only [List.mem_cons, List.not_mem_nil, or_false, not_or] at hi
    rw [hσ7, Function.update_of_ne hi.2.2.1, Function.update_of_ne hi.2.1, Function.update_of_ne hi.1, Function.update_of_ne hi.2.2.2, Function.update_of_ne hi.2.2.2]
  · intro s' h i hi v e
    simp only [List.mem_cons, List.not_mem_nil, or_false] at hi
    obtain rfl | rfl | rfl | rfl := hi
    · rw [g1] at e; cases e; exact h.2.1
    · rw [g2] at e; cases e; exact h.2.2.1
    · rw [g3] at e; cases e; exact h.2.2.2
    · rw [g4] at e; cases e
  clear_value σ7
  clear hσ7 g4 hB h6 h7 f7
  refine h16.inval sep .vv en (tm _ (by decide)) fun s17 h17 => ?_
  refine h17.inval sep .bg en (tm _ (by decide)) fun s18 h18 => ?_
  refine h18.inval sep .qv en (tm _ (by decide)) fun s19 h19 => ?_
  refine h19.inval sep .kv en (tm _ (by decide)) fun s20 h20 => ?_
  refine h20.inval sep .ag en (tm _ (by decide)) fun s21 h21 => ?_
  -- projections
  refine attnProjectBackward_runs sep h21 (i := .vTg) (j := .vg) rfl rfl (by decide) m6 m3 m6 m3 m10 fit.wv fit.xv (fit.tT l.vT (by simp)) (fit.t4 l.v (by simp))
    (fit.bqkv _ (by simp)) (req l.vT (by simp)) rv en l.redux (dp := l.dV z asIdx env dy)
    (by rw [Function.update_of_ne (by decide), Function.update_of_ne (by decide), Function.update_of_ne (by decide), Function.update_of_ne (by decide),
      Function.update_of_ne (by decide), g3]) (tm _ (by decide)) (tm _ (by decide)) gm fun s22 σ22 h22 f22 => ?_
  refine attnProjectBackward_runs sep h22 (i := .kTg) (j := .kg) rfl rfl (by decide) m5 m2 m5 m2 m9 fit.wk fit.xk (fit.tT l.kT (by simp)) (fit.t4 l.k (by simp))
    (fit.bqkv _ (by simp)) (req l.kT (by simp)) rk en l.redux (dp := l.dK z asIdx env dy)
    (by rw [f22 _ (by decide) (by decide), Function.update_of_ne (by decide), Function.update_of_ne (by decide), Function.update_of_ne (by decide),
      Function.update_of_ne (by decide), Function.update_of_ne (by decide), g2]) (tm _ (by decide)) (tm _ (by decide)) gm fun s23 σ23 h23 f23 => ?_
  have := attnProjectBackward_runs sep h23 (i := .qTg) (j := .qg) rfl rfl (by decide) m4 m1 m4 m1 m8 fit.wq fit.xq (fit.tT l.qT (by simp)) (fit.t4 l.q (by simp))
    (fit.bqkv _ (by simp)) (req l.qT (by simp)) rq en l.redux (dp := l.dQ z asIdx env dy)
    (by rw [f23 _ (by decide) (by decide), f22 _ (by decide) (by decide), Function.update_of_ne (by decide), Function.update_of_ne (by decide), Function.update_of_ne (by decide),
      Function.update_of_ne (by decide), Function.update_of_ne (by decide), g1])
    (tm _ (by decide)) (tm _ (by decide)) gm (ps := []) (P := fun s' => AllReady l.temps s' ∧ GradsHold l.ins s' (fun i J => g0 i J + l.G z asIdx env dy i J))
    fun s24 σ24 h24 f24 => Runs.nil ⟨fun T hT => l.all_ready h24.ready T (by simp [hT]), ?_⟩
  · rwa [List.append_nil] at this
  · have e : (fun i J => g0 i J + l.G z asIdx env dy i J) = fun i J => g0 i J + gOpt l.biasOut (fiberG [z.E, z.S, z.B] 0 dy) i J +
        (if i = l.w.value.id then combGW z.S z.B dy (l.headsOut z asIdx env) J else 0) + projG z.S z.B z.H z.D l.wv l.xv l.biasV env (l.dV z asIdx env dy) i J +
        projG z.S z.B z.H z.D l.wk l.xk l.biasK env (l.dK z asIdx env dy) i J + projG z.S z.B z.H z.D l.wq l.xq l.biasQ env (l.dQ z asIdx env dy) i J := by
      funext i J
      simp only [Attention.G, gOf]
      ring
    rw [e]
    exact h24.grads

end
end NNTile
