import Verif.Lib.FlashRealBwd
import Verif.Spec.FlashLayer
/-!
# Forward propagation of FlashAttention
-/
namespace NNTile
open Finset

section
variable (l : Attention ℝ) (z : AttnDims) (asIdx : ℝ → Int) (en : Bool)
theorem Attention.toFlashNet_ins : (l.toFlashNet z asIdx en).ins = l.ins := rfl
theorem Attention.toFlashNet_out : (l.toFlashNet z asIdx en).out = l.y := rfl
theorem Attention.toFlashNet_temps : (l.toFlashNet z asIdx en).temps = l.temps := rfl
theorem Attention.toNet_ins : (l.toNet z asIdx en).ins = l.ins := rfl
theorem Attention.toNet_out : (l.toNet z asIdx en).out = l.y := rfl
theorem Attention.toNet_temps : (l.toNet z asIdx en).temps = l.temps := rfl
theorem Attention.toFlashNet_ids : (l.toFlashNet z asIdx en).ids = (l.toNet z asIdx en).ids := by
  rw [NetLayer.ids, NetLayer.ids, toFlashNet_ins, toFlashNet_out, toFlashNet_temps, toNet_ins, toNet_out, toNet_temps]
end

theorem invalidate_false {ps : List (M (List (Task1 ℝ)))} {T : Tensor} {s : Store ℝ} {ids : List Nat} {P : Store ℝ → Prop} (k : Runs (seqAsync ps) s ids P) :
    Runs (seqAsync (invalidateAsync false T :: ps)) s ids P := by
  have : (invalidateAsync false T : M (List (Task1 ℝ))) = .ok [] := by simp [invalidateAsync]
  rw [this]
  exact LSt.skip k

/-- A step with several results. -/
theorem LSt.stepRuns {ι : Type} [DecidableEq ι] {ins gs : List Moments} {tens : ι → Tensor} {s : Store ℝ} {env g : Env} {σ : ι → Option (List Nat → ℝ)}
    (sep : LSep ins gs tens) (h : LSt ins gs tens s env g σ) (J : List ι) {p : M (List (Task1 ℝ))} {Q : Store ℝ → Prop}
    (hp : Runs p s (J.map fun i => (tens i).id) Q) {ps : List (M (List (Task1 ℝ)))} {ids : List Nat} (hi : ∀ i ∈ J, (tens i).id ∈ ids) {P : Store ℝ → Prop}
    (hr : ∀ s', Q s' → ∀ i ∈ J, (tens i).Ready s') {σ' : ι → Option (List Nat → ℝ)} (ho : ∀ i, i ∉ J → σ' i = σ i)
    (hσ : ∀ s', Q s' → ∀ i ∈ J, ∀ v, σ' i = some v → (tens i).Holds s' v)
    (k : ∀ s', LSt ins gs tens s' env g σ' → Runs (seqAsync ps) s' ids P) : Runs (seqAsync (p :: ps)) s ids P := by
  have nm : ∀ {i}, i ∉ J → (tens i).id ∉ J.map fun i => (tens i).id := by
    intro i hi e
    obtain ⟨j, hj, e⟩ := List.mem_map.1 e
    exact hi (sep.inj e ▸ hj)
  refine Runs.cons' hp (fun i hi' => ?_) fun s' hc hq => k s' ⟨h.vals.changed hc ?_, ?_, ⟨fun i => ?_, fun i v e => ?_⟩⟩
  · obtain ⟨j, hj, rfl⟩ := List.mem_map.1 hi'
    exact hi j hj
  · intro m hm e
    obtain ⟨j, hj, e⟩ := List.mem_map.1 e
    exact sep.vt m hm j e.symm
  · intro m hm hr
    have : m.grad.id ∉ J.map fun i => (tens i).id := by
      intro e
      obtain ⟨j, hj, e⟩ := List.mem_map.1 e
      exact sep.gt m hm hr j e.symm
    exact ⟨hc.ready (h.grads m hm hr).1 this, hc.holds (h.grads m hm hr).2 this⟩
  · by_cases hJ : i ∈ J
    · exact hr s' hq i hJ
    · exact hc.ready (h.ready i) (nm hJ)
  · by_cases hJ : i ∈ J
    · exact hσ s' hq i hJ v e
    · rw [ho i hJ] at e
      exact hc.holds (h.hold e) (nm hJ)

theorem attn_heads {l : Attention ℝ} {z t : AttnDims} (fit : l.Fits z t) {m : Moments} (hm : m ∈ [l.q, l.k, l.v, l.b]) : m.value.IsHeads z t ∧ m.grad.IsHeads z t := by
  have f := fit.t4 m hm
  have hr : m.gradRequired = true := fit.required m (by
    simp only [List.mem_cons, List.not_mem_nil, or_false] at hm ⊢
    tauto)
  exact ⟨⟨f.1, f.2.1⟩, f.2.2 hr⟩

set_option maxHeartbeats 2000000 in
theorem flash_forward {l : Attention ℝ} {z t : AttnDims} (fit : l.Fits z t) (ft : FlashTiles z t) {T : Tensor} (hm : l.mask = some T) {asIdx : ℝ → Int}
    (ids : (l.toFlashNet z asIdx false).ids.Nodup) {s : Store ℝ}
    {env : Env} (hv : ValuesHold l.ins s env) (hr : AllReady (l.y.value :: l.temps) s) :
    Runs (l.flashForwardAsync asIdx false) s (l.y.value.id :: l.temps.map Tensor.id) (fun s' =>
      l.y.value.Holds s' (l.F z asIdx env) ∧ AllReady (l.y.value :: l.temps) s' ∧ (l.toFlashNet z asIdx false).Saved env s') := by
  rw [Attention.toFlashNet_ids] at ids
  have sep := Attention.sep (l := l) (z := z) (asIdx := asIdx) (en := false) ids (out := l.y.value) (by simp [Moments.ids])
  -- no gradients are involved
  have sep' : LSep l.ins [] (l.tens l.y.value) := ⟨sep.inj, sep.vt, by simp, by simp, by simp, by simp⟩
  clear sep
  obtain ⟨m1, m2, m3, m4, m5, m6, m7, m8, m9, m10, m11, m12⟩ := l.mem_ins
  have tm := fun i => l.tens_mem (out := l.y.value) i
  have h0 : LSt l.ins [] (l.tens l.y.value) s env (fun _ _ => 0) (fun _ => none) := ⟨hv, by intro m hm; simp at hm, ⟨l.tens_ready hr, by simp⟩⟩
  have hq := attn_heads fit (m := l.q) (by simp)
  have hk := attn_heads fit (m := l.k) (by simp)
  have hvv := attn_heads fit (m := l.v) (by simp)
  have hb := attn_heads fit (m := l.b) (by simp)
  obtain ⟨b1, b2⟩ := hb.1
  obtain ⟨bT1, bT2, -⟩ := fit.tT l.bT (by simp)
  obtain ⟨w1, w2, -⟩ := fit.w
  obtain ⟨y1, y2, -⟩ := fit.y
  have ha : l.a.value.IsScores z t := ⟨fit.a.1, fit.a.2.1⟩
  have hT : T.IsMask z t := fit.mask T hm
  have mT := m12 T hm
  have hmse : l.aMaxsumexp.IsPairs z t := fit.mse
  have ne : ∀ {i j : AI}, i ≠ j → (l.tens l.y.value i).id ≠ (l.tens l.y.value j).id := fun hij e => hij (sep'.inj e)
  rw [Attention.flashForwardAsync, List.append_assoc, List.append_assoc, List.append_assoc]
  refine attnProject_runs sep' h0 (i := .qTv) (j := .qv) rfl rfl (by decide) m4 m1 m8 fit.wq fit.xq (fit.tT l.qT (by simp)) (fit.t4 l.q (by simp))
    (fit.bqkv _ (by simp)) false l.redux (tm _) (tm _) fun s1 σ1 h1 e1 o1 => ?_
  refine attnProject_runs sep' h1 (i := .kTv) (j := .kv) rfl rfl (by decide) m5 m2 m9 fit.wk fit.xk (fit.tT l.kT (by simp)) (fit.t4 l.k (by simp))
    (fit.bqkv _ (by simp)) false l.redux (tm _) (tm _) fun s2 σ2 h2 e2 o2 => ?_
  refine attnProject_runs sep' h2 (i := .vTv) (j := .vv) rfl rfl (by decide) m6 m3 m10 fit.wv fit.xv (fit.tT l.vT (by simp)) (fit.t4 l.v (by simp))
    (fit.bqkv _ (by simp)) false l.redux (tm _) (tm _) fun s3 σ3 h3 e3 o3 => ?_
  change σ1 AI.qv = some (l.Q z env) at e1
  change σ2 AI.kv = some (l.K z env) at e2
  change σ3 AI.vv = some (l.V z env) at e3
  have eq : σ3 AI.qv = some (l.Q z env) := by rw [o3 _ (by decide) (by decide), o2 _ (by decide) (by decide), e1]
  have ek : σ3 AI.kv = some (l.K z env) := by rw [o3 _ (by decide) (by decide), e2]
  clear e1 o1 e2 o2 o3 h1 h2 h0
  simp only [Attention.flashHeads, Attention.combine, List.cons_append, List.nil_append]
  rw [hm]
  dsimp only
  refine h3.step sep' (i := .mse) (C11_clear (h3.ready .mse)) (tm _) fun s5 h5 => ?_
  have es : l.scores z asIdx env = attnMasked (fun I => maskBool asIdx (env (maskMoments T).value.id I)) l.val (attnScore z.D (l.K z env) (l.Q z env)) := by
    rw [Attention.scores, hm]
    rfl
  obtain ⟨w, hw, hw'⟩ := maxsumexp_real ft hq.1 hk.1 hT hmse ha (h5.ready .qv) (h5.ready .kv) (h5.value mT).1 (h5.ready .mse) (h5.ready .av)
    (ne (i := .qv) (j := .av) (by decide)) (ne (i := .kv) (j := .av) (by decide)) (sep'.vt _ mT .av) (ne (i := .mse) (j := .av) (by decide))
    (ne (i := .qv) (j := .mse) (by decide)) (ne (i := .kv) (j := .mse) (by decide)) (sep'.vt _ mT .mse)
    (h5.hold (i := .qv) (v := l.Q z env) (by rw [Function.update_of_ne (by decide), eq])) (h5.hold (i := .kv) (v := l.K z env) (by rw [Function.update_of_ne (by decide), ek]))
    (h5.value mT).2 (h5.hold (i := .mse) (Function.update_self ..)) (maskBool asIdx) l.val
  refine h5.step sep' (i := .mse) hw (tm _) fun s6 h6 => ?_
  have hg := softmax_gemm_real ft hq.1 hk.1 hvv.1 hT hmse hb.1 ha (h6.ready .qv) (h6.ready .kv) (h6.ready .vv) (h6.value mT).1 (h6.ready .mse) (h6.ready .bv) (h6.ready .av)
    (ne (i := .qv) (j := .av) (by decide)) (ne (i := .kv) (j := .av) (by decide)) (ne (i := .vv) (j := .av) (by decide)) (sep'.vt _ mT .av)
    (ne (i := .mse) (j := .av) (by decide)) (ne (i := .bv) (j := .av) (by decide))
    (ne (i := .qv) (j := .bv) (by decide)) (ne (i := .kv) (j := .bv) (by decide)) (ne (i := .vv) (j := .bv) (by decide)) (sep'.vt _ mT .bv) (ne (i := .mse) (j := .bv) (by decide))
    (h6.hold (i := .qv) (v := l.Q z env) (by rw [Function.update_of_ne (by decide), Function.update_of_ne (by decide), eq]))
    (h6.hold (i := .kv) (v := l.K z env) (by rw [Function.update_of_ne (by decide), Function.update_of_ne (by decide), ek]))
    (h6.hold (i := .vv) (v := l.V z env) (by rw [Function.update_of_ne (by decide), Function.update_of_ne (by decide), e3]))
    (h6.value mT).2 (h6.hold (i := .mse) (Function.update_self ..)) (maskBool asIdx) l.val hw'
  rw [← es] at hg hw'
  refine h6.step sep' (i := .bv) (v := l.headsOut z asIdx env) hg (tm _) fun s10 h10 => ?_
  refine invalidate_false ?_
  obtain ⟨σ10, h10, u1, u2, u3⟩ : ∃ σ10, LSt l.ins [] (l.tens l.y.value) s10 env (fun _ _ => 0) σ10 ∧ σ10 .bv = some (l.headsOut z asIdx env) ∧ σ10 .mse = some w ∧
      ∀ o, o ≠ .bv → o ≠ .mse → σ10 o = σ3 o := ⟨_, h10, Function.update_self .., by rw [Function.update_of_ne (by decide), Function.update_self], fun o q1 q2 => by
        rw [Function.update_of_ne q1, Function.update_of_ne q2, Function.update_of_ne q2]⟩
  clear h3 h5 h6 hw hg
  refine h10.step sep' (i := .bTv) (v := fun I => l.headsOut z asIdx env (I.drop 1 ++ I.take 1)) (transpose_computes (nd := 3) (h10.ready .bv) (h10.ready .bTv)
    (ne (by decide)) ⟨by decide, by simp only [Attention.tens]; rw [b1]; simp, by simp only [Attention.tens]; rw [b1, bT1]; rfl, by simp only [Attention.tens]; rw [b2, bT2]; rfl⟩
    (h10.hold u1) ?_) (tm _) fun s11 h11 => ?_
  · intro I hI J hJ
    simp only [Attention.tens] at hI hJ
    rw [b1] at hI hJ
    obtain ⟨h, hh, rfl⟩ := mem_box1 hJ
    rfl
  refine h11.step sep' (i := .out) (v := attnCombine z.H z.D (env l.w.value.id) (l.headsOut z asIdx env) (fun _ => 0)) (gemm_computes (tA := .noTrans) (tB := .noTrans) (nd := 2)
    (bt := 0) (h11.value m7).1 (h11.ready .bTv) (h11.ready .out) (sep'.vt _ m7 .out) (ne (by decide)) (M := [z.E]) (K := [z.H, z.D]) (N := [z.S, z.B]) (R := [])
    ⟨rfl, rfl, w1, bT1, y1⟩ ⟨[t.E], [t.H, t.D], [t.S, t.B], [], rfl, rfl, w2, bT2, y2⟩ 1 0 l.redux (fun _ => 0) (h11.value m7).2 (h11.hold (Function.update_self ..))
    (by simp) ?_) (tm _) fun s12 h12 => ?_
  · intro I hI J hJ b hb
    obtain ⟨e, he, rfl⟩ := mem_box1 hI
    obtain ⟨j, n, hj, hn, rfl⟩ := mem_box2 hJ
    obtain rfl := mem_box_nil hb
    simp [attnCombine, sum_box2]
  refine invalidate_false ?_
  have fin : ∀ s' σ', LSt l.ins [] (l.tens l.y.value) s' env (fun _ _ => 0) σ' → σ' .out = some (l.F z asIdx env) →
      σ' .bTv = some (fun I => l.headsOut z asIdx env (I.drop 1 ++ I.take 1)) → (∀ o, o ≠ .out → o ≠ .bTv → σ' o = σ10 o) →
      l.y.value.Holds s' (l.F z asIdx env) ∧ AllReady (l.y.value :: l.temps) s' ∧ (l.toFlashNet z asIdx false).Saved env s' := by
    intro s' σ' h' c1 c2 c3
    have f : ∀ {o : AI} {v : List Nat → ℝ}, o ≠ .out → o ≠ .bTv → o ≠ .bv → o ≠ .mse → σ3 o = some v → σ' o = some v :=
      fun q1 q2 q3 q4 e => (c3 _ q1 q2).trans ((u3 _ q3 q4).trans e)
    exact ⟨h'.hold c1, l.all_ready h'.ready, h'.hold (i := .qv) (f (by decide) (by decide) (by decide) (by decide) eq),
      h'.hold (i := .kv) (f (by decide) (by decide) (by decide) (by decide) ek),
      h'.hold (i := .vv) (f (by decide) (by decide) (by decide) (by decide) e3),
      ⟨w, h'.hold (i := .mse) ((c3 _ (by decide) (by decide)).trans u2), hw'⟩, h'.hold (i := .bTv) c2⟩
  have c1 : Function.update (Function.update σ10 AI.bTv (some fun I => l.headsOut z asIdx env (I.drop 1 ++ I.take 1))) AI.out
        (some (attnCombine z.H z.D (env l.w.value.id) (l.headsOut z asIdx env) (fun _ => 0))) .out =
        some (attnCombine z.H z.D (env l.w.value.id) (l.headsOut z asIdx env) (fun _ => 0)) := Function.update_self ..
  cases hb : l.biasOut with
  | none =>
    refine LSt.skip (Runs.nil (fin s12 _ h12 ?_ (by rw [Function.update_of_ne (by decide), Function.update_self]) fun o q1 q2 => by
      rw [Function.update_of_ne q1, Function.update_of_ne q2]))
    rw [c1, Attention.F, hb]
    rfl
  | some b =>
    obtain ⟨bo1, bo2, -⟩ := fit.bo b hb
    have mb := m11 b hb
    refine h12.step sep' (i := .out) (v := l.F z asIdx env)
      ((C13_add_fiber_partial (a := 0) (b := 0) (h12.value mb).1 (h12.ready .out) (sep'.vt _ mb .out)
        ⟨by simp only [Attention.tens]; rw [y1]; simp, by simp only [Attention.tens]; rw [bo1, y1]; rfl, by simp only [Attention.tens]; rw [bo2, y1, y2]; rfl⟩
        1 1 (.inr rfl) _ _ (h12.value mb).2 (fun _ => h12.hold c1)).congr ?_) (tm _) fun s14 h14 => Runs.nil (fin s14 _ h14 (Function.update_self ..) ?_ ?_)
    · intro I hI
      simp only [Attention.tens] at hI
      rw [y1] at hI
      obtain ⟨e, j, n, he, hj, hn, rfl⟩ := mem_box3 (mem_box.2 hI)
      simp [Attention.F, attnCombine, hb, biasAt, fiberIdx]
    · rw [Function.update_of_ne (by decide), Function.update_of_ne (by decide), Function.update_self]
    · intro o q1 q2
      rw [Function.update_of_ne q1, Function.update_of_ne q1, Function.update_of_ne q2]

end NNTile
