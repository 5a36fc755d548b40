import Verif.Lib.SegGrad
/-!
# C62: `MlpMixer` computes the function of an MLP-Mixer and its gradient
-/
namespace NNTile
open Finset
variable {x : Moments} {n B q E C k tB tq next next' : Nat} {invalidate : Bool} {m : MlpMixer ℝ} {ts : List (Task1 ℝ)} {p : MixP Moments} {out : Moments}

/-- **The constructor.** It succeeds; the model has the parameters of `k` mixer layers and of the two linear layers, with the expected shapes, and an output for `C` classes; all tensors of the
network have different identities, the new ones are usable and require gradients; the submitted tasks initialize the parameters of the normalizations with ones and zeros. -/
theorem C62_constructor (h : MixArgs x n B q E C k tB tq next) (invalidate : Bool) :
    ∃ (m : MlpMixer ℝ) (ts : List (Task1 ℝ)) (p : MixP Moments) (out : Moments), mlpMixer x E k C next = .ok (m, ts, next + 48 * k + 16) ∧ m.Has k p out ∧ p.Shapes n q E C ∧
      out.value.shape = [C, B] ∧ out.value.basetile = [C, tB] ∧ LnInit ts p.norms ∧ (netIds (x :: p.toList) (m.net invalidate)).Nodup ∧
      (∀ i ∈ netIds (x :: p.toList) (m.net invalidate), i < next + 48 * k + 16) ∧ out ∈ (m.net invalidate).map NetLayer.out ∧
      (∀ r ∈ p.toList ++ (m.net invalidate).map NetLayer.out, r.Usable ∧ r.gradRequired = true) ∧ ∀ l ∈ m.net invalidate, ∀ T ∈ l.temps, T.WF := by
  obtain ⟨m, ts, p, out, e, hm, h1, h2, h3, h4, h5, -⟩ := mlpMixer_grown (invalidate := invalidate) h.usable h.ids h.below h.shape h.tile h.embed h.classes h.layers
  refine ⟨m, ts, p, out, e, ⟨hm.params, h1, hm.last⟩, h2, h3, h4, h5.init ?_, hm.net.ids, hm.net.below, hm.output, hm.net.wf, hm.net.temps⟩
  have hall := (netIds_allMoments hm.net.ids).1
  rw [List.flatMap_append, List.nodup_append] at hall
  have hv := values_nodup hall.1
  rw [List.map_append, List.nodup_append] at hv
  have hsub : (p.norms.flatMap fun r => [r.1.value.id, r.2.value.id]).Sublist (p.toList.map fun r => r.value.id) := by
    have key : ∀ bs : List (MixBlockP Moments), ((bs.flatMap MixBlockP.norms).flatMap fun r => [r.1.value.id, r.2.value.id]).Sublist ((bs.flatMap MixBlockP.toList).map fun r => r.value.id) := by
      intro bs
      induction bs with
      | nil => simp
      | cons b bs ih =>
        rw [List.flatMap_cons, List.flatMap_append, List.flatMap_cons, List.map_append]
        refine List.Sublist.append ?_ ih
        simp only [MixBlockP.norms, MixBlockP.toList, List.flatMap_cons, List.flatMap_nil, List.map_cons, List.map_nil, List.cons_append, List.nil_append]
        refine .cons₂ _ (.cons₂ _ (.cons _ (.cons _ (.cons₂ _ (.cons₂ _ (.cons _ (.cons _ .slnil)))))))
    have := key p.blocks
    unfold MixP.norms MixP.toList
    rw [List.map_cons, List.map_append]
    exact (this.trans (List.sublist_append_left _ _)).cons _
  exact hv.2.1.sublist hsub

private theorem blocks_inj : ∀ (a b : List (MixBlockP Moments)) (u v : List Moments), a.length = b.length → a.flatMap MixBlockP.toList ++ u = b.flatMap MixBlockP.toList ++ v → a = b ∧ u = v := by
  intro a
  induction a with
  | nil =>
    intro b u v hl h
    cases b with
    | nil => exact ⟨rfl, h⟩
    | cons => cases hl
  | cons c a ih =>
    intro b u v hl h
    cases b with
    | nil => cases hl
    | cons d b =>
      rw [List.flatMap_cons, List.flatMap_cons, List.append_assoc, List.append_assoc] at h
      obtain ⟨h1, h2⟩ := List.append_inj h rfl
      obtain ⟨rfl, h3⟩ := ih b u v (by simpa using hl) h2
      refine ⟨?_, h3⟩
      obtain ⟨c1, c2, c3, c4, c5, c6, c7, c8⟩ := c
      obtain ⟨d1, d2, d3, d4, d5, d6, d7, d8⟩ := d
      simp only [MixBlockP.toList, List.cons.injEq, and_true] at h1
      obtain ⟨rfl, rfl, rfl, rfl, rfl, rfl, rfl, rfl⟩ := h1
      rfl

private theorem has_inj {p p' : MixP Moments} {out out' : Moments} (h : m.Has k p out) (h' : m.Has k p' out') : p = p' ∧ out = out' := by
  constructor
  · have e := h.params.symm.trans h'.params
    obtain ⟨w, bs, wc⟩ := p
    obtain ⟨w', bs', wc'⟩ := p'
    simp only [MixP.toList, List.cons.injEq] at e
    obtain ⟨e1, e2⟩ := blocks_inj bs bs' _ _ (h.blocks.trans h'.blocks.symm) e.2
    simp only [List.cons.injEq, and_true] at e2
    rw [e.1, e1, e2]
  · exact Option.some.inj (h.last.symm.trans h'.last)

/-- What is known about a model which was constructed. -/
private theorem built (h : MixArgs x n B q E C k tB tq next) (he : mlpMixer x E k C next = .ok (m, ts, next')) (hh : m.Has k p out) (invalidate : Bool) :
    MixModel invalidate x m p out (next + 48 * k + 16) ∧ out.value.shape = [C, B] ∧
      ∀ env i j, netEnv env (m.net invalidate) out.value.id [i, j] = mixOut n q E (p.map fun m => env m.value.id) (env x.value.id) [i, j] := by
  obtain ⟨m', ts', p', out', e, hm, h1, h2, h3, h4, h5, h6⟩ := mlpMixer_grown (invalidate := invalidate) h.usable h.ids h.below h.shape h.tile h.embed h.classes h.layers
  have : m = m' := congrArg Prod.fst (Except.ok.inj (he.symm.trans e))
  subst this
  obtain ⟨rfl, rfl⟩ := has_inj hh ⟨hm.params, h1, hm.last⟩
  exact ⟨hm, h3, h6⟩

private theorem val_of (h : MixArgs x n B q E C k tB tq next) (he : mlpMixer x E k C next = .ok (m, ts, next')) (hh : m.Has k p out) (invalidate : Bool) (env : Env) {I : List Nat}
    (hI : InBox [C, B] I) : netEnv env (m.net invalidate) out.value.id I = mixOut n q E (p.map fun m => env m.value.id) (env x.value.id) I := by
  obtain ⟨i, j, rfl⟩ : ∃ i j, I = [i, j] := by
    have := hI.length
    simp only [List.length_cons, List.length_nil] at this
    exact List.length_eq_two.1 this
  exact (built h he hh invalidate).2.2 env i j

/-- **Forward propagation.** If the input and the parameters are in their tensors and all tensors are registered, `forward_async` leaves the output of the MLP-Mixer in the last activation,
whatever the other activations contained; inputs, parameters and all gradients are unchanged; the state is that which backward propagation needs. -/
theorem C62_forward (h : MixArgs x n B q E C k tB tq next) (he : mlpMixer x E k C next = .ok (m, ts, next')) (hh : m.Has k p out) {s : Store ℝ} {env : Env}
    (hr : NetReady (x :: p.toList) (m.net invalidate) s) (hv : ∀ r ∈ x :: p.toList, r.value.Holds s (env r.value.id)) :
    Runs m.forwardAsync s (fwdIds (m.net invalidate)) (fun s' => out.value.Holds s' (mixOut n q E (p.map fun m => env m.value.id) (env x.value.id)) ∧
      Propagated (x :: p.toList) (m.net invalidate) env s') ∧
    (∀ r ∈ x :: p.toList, r.value.id ∉ fwdIds (m.net invalidate)) ∧
    ∀ r ∈ x :: p.toList ++ (m.net invalidate).map NetLayer.out, r.gradRequired = true → r.grad.id ∉ fwdIds (m.net invalidate) := by
  obtain ⟨hm, hs, -⟩ := built h he hh invalidate
  obtain ⟨hall, htmp⟩ := netIds_allMoments hm.net.ids
  refine ⟨?_, ?_, ?_⟩
  · rw [hm.forward]
    refine (net_forward _ (x :: p.toList) s env hm.net.correct hm.net.order hm.net.ids (hm.net.valid env) (fun r hr' => ⟨(hr.1 r (List.mem_append_left _ hr')).1, hv r hr'⟩) ?_).imp (fun _ h => h) ?_
    · intro l hl T hT
      rcases List.mem_cons.1 hT with rfl | hT
      · exact (hr.1 l.out (List.mem_append_right _ (List.mem_map_of_mem hl))).1
      · exact hr.2 l hl T hT
    · rintro s' _ hp
      refine ⟨?_, hp⟩
      intro I hI
      rw [(hp.1 out (List.mem_append_right _ hm.output)).2 I hI, val_of h he hh invalidate env (hs ▸ hI)]
  · intro r hr' hi
    have hv := values_nodup hall
    rw [List.map_append, List.nodup_append] at hv
    obtain ⟨l, hl, hi⟩ := List.mem_flatMap.1 hi
    rcases List.mem_cons.1 hi with e | hi
    · exact hv.2.2 _ (List.mem_map.2 ⟨r, hr', rfl⟩) _ (List.mem_map.2 ⟨l.out, List.mem_map_of_mem hl, rfl⟩) e
    · exact htmp l hl _ hi (List.mem_flatMap.2 ⟨r, List.mem_append_left _ hr', r.value_mem_ids⟩)
  · intro r hr' hg hi
    have hgi : r.grad.id ∈ r.gradIds := by simp [Moments.gradIds, hg]
    obtain ⟨l, hl, hi⟩ := List.mem_flatMap.1 hi
    rcases List.mem_cons.1 hi with e | hi
    · exact value_not_gradIds hall (List.mem_append_right _ (List.mem_map_of_mem hl)) hr' (e ▸ hgi)
    · exact htmp l hl _ hi (List.mem_flatMap.2 ⟨r, hr', gradIds_subset hgi⟩)

/-- **Backward propagation.** After forward propagation, with `dy` in the gradient of the output and zeros in those of all other activations, `backward_async` adds to each element of the
gradient of each parameter (and of the input, if it requires a gradient) the partial derivative of the scalar product of `dy` and the output with respect to that element. -/
theorem C62_backward (h : MixArgs x n B q E C k tB tq next) (he : mlpMixer x E k C next = .ok (m, ts, next')) (hh : m.Has k p out) {s : Store ℝ} {env : Env}
    (hp : Propagated (x :: p.toList) (m.net invalidate) env s) {dy : List Nat → ℝ} (hdy : out.grad.Ready s ∧ out.grad.Holds s dy)
    (hzero : ∀ r ∈ (m.net invalidate).map NetLayer.out, r ≠ out → r.grad.Ready s ∧ r.grad.Holds s (fun _ => 0)) {G : Env} (hG : GradsHold (x :: p.toList) s G) :
    Runs (m.backwardAsync invalidate) s (bwdIds (m.net invalidate)) (fun s' => NetReady (x :: p.toList) (m.net invalidate) s' ∧
      ∃ g : Env, GradsHold (x :: p.toList) s' (fun i J => G i J + g i J) ∧ ∀ r ∈ x :: p.toList, r.gradRequired = true → ∀ J ∈ box r.value.shape,
        HasDerivAt (fun t => ∑ I ∈ box [C, B], dy I * mixOut n q E (p.map fun m => env.shift r.value.id J t m.value.id) (env.shift r.value.id J t x.value.id) I) (g r.value.id J) 0) := by
  obtain ⟨hm, hs, -⟩ := built h he hh invalidate
  obtain ⟨g, hgx, hgo, hgn, hseg, -⟩ := hm.clear
  obtain ⟨hall, htmp⟩ := netIds_allMoments hm.net.ids
  obtain ⟨lo, hlo, rfl⟩ := List.mem_map.1 hm.output
  have hreq : ∀ l ∈ m.net invalidate, l.out.gradRequired = true := fun l hl => (hm.net.correct l hl).required
  have hZ : ∀ T ∈ [g.x.grad], T.Holds s (fun _ => 0) := by
    intro T hT
    obtain rfl := List.mem_singleton.1 hT
    exact (hzero g.x hgx hgo).2
  refine (segBack_gradient hseg hm.net.order hm.net.ids hp (hm.net.regular env) hlo hdy ?_ hZ hG).imp (fun _ h => h) ?_
  · intro l hl hne
    exact hzero _ (List.mem_map_of_mem hl) fun e => hne (by rw [e])
  · rintro s' c ⟨q1, d, q2, q3⟩
    refine ⟨⟨?_, fun l hl => (q1 l hl).1⟩, d, q2, ?_⟩
    · intro r hr
      refine ⟨c.ready (hp.1 r hr).1 ?_, fun hr' => ?_⟩
      · intro hi
        rcases hm.net.order.bwdIds_mem hi with ⟨m', hm', hi'⟩ | ⟨l', hl', hi'⟩
        · exact value_not_gradIds hall hr (List.mem_append.2 hm') hi'
        · exact htmp l' hl' _ hi' (List.mem_flatMap.2 ⟨r, hr, r.value_mem_ids⟩)
      · rcases List.mem_append.1 hr with hr | hr
        · exact (q2 r hr hr').1
        · obtain ⟨l, hl, rfl⟩ := List.mem_map.1 hr
          exact (q1 l hl).2
    · intro r hr hr' J hJ
      obtain ⟨D, hD, e⟩ := q3 r hr hr' J hJ
      rw [e, hs]
      refine HasDerivAt.fun_sum fun I hI => ?_
      have := (hD I (by rw [hs]; exact hI)).const_mul (dy I)
      have e2 : (fun t => dy I * netEnv (env.shift r.value.id J t) (m.net invalidate) lo.out.value.id I) = fun t =>
          dy I * mixOut n q E (p.map fun m => env.shift r.value.id J t m.value.id) (env.shift r.value.id J t x.value.id) I := by
        funext t
        rw [val_of h he hh invalidate _ (mem_box.1 hI)]
      rw [← e2]
      exact this

/-- Tensors whose gradients are cleared. -/
private theorem clear_all {m : MlpMixer ℝ} {s : Store ℝ} (hm : MixModel invalidate x m p out next') (hr : NetReady (x :: p.toList) (m.net invalidate) s) (a : List Moments)
    (ha : ∀ r ∈ a, r ∈ p.toList) (tl : List Moments) (htl : ∀ r, r ∈ tl ↔ ∃ l ∈ m.layers, r ∈ l.temporaries) : Runs (clearGrads (a ++ (m.activations ++ tl))) s
      ((a ++ x :: (m.net invalidate).map NetLayer.out).flatMap Moments.gradIds ++ (m.net invalidate).flatMap fun l => l.temps.map Tensor.id)
      (fun s' => NetReady (x :: p.toList) (m.net invalidate) s' ∧ ∀ r ∈ a ++ x :: (m.net invalidate).map NetLayer.out, r.GradHolds s' (fun _ => 0)) := by
  obtain ⟨g, hgx, hgo, hgn, -, c1, c2, c3, c4⟩ := hm.clear
  obtain ⟨hall, htmp⟩ := netIds_allMoments hm.net.ids
  have hyt : g.yT.grad ∈ g.toNet.temps := by simp [GapLayer.toNet]
  set U : List Moments := (x :: p.toList ++ (m.net invalidate).map NetLayer.out) ++ [g.yT] with hU
  have hgt : ∀ r ∈ x :: p.toList ++ (m.net invalidate).map NetLayer.out, r.gradRequired = true → r.grad.id ≠ g.yT.grad.id := by
    intro r hr' hg e
    exact htmp g.toNet hgn _ (List.mem_map_of_mem hyt) (List.mem_flatMap.2 ⟨r, hr', by rw [← e]; simp [Moments.ids, Moments.gradIds, hg]⟩)
  have hinj : ∀ r ∈ U, ∀ r' ∈ U, r.gradRequired = true → r'.gradRequired = true → r.grad.id = r'.grad.id → r = r' := by
    intro r h1 r' h2 g1 g2 e
    rcases List.mem_append.1 h1 with h1 | h1
    · rcases List.mem_append.1 h2 with h2 | h2
      · exact ids_inj hall h1 h2 (i := r.grad.id) (by simp [Moments.ids, Moments.gradIds, g1]) (by simp [Moments.ids, Moments.gradIds, g2, e])
      · obtain rfl := List.mem_singleton.1 h2
        exact absurd e (hgt r h1 g1)
    · obtain rfl := List.mem_singleton.1 h1
      rcases List.mem_append.1 h2 with h2 | h2
      · exact absurd e.symm (hgt r' h2 g2)
      · exact (List.mem_singleton.1 h2).symm
  have hready : ∀ r ∈ U, r.gradRequired = true → r.grad.Ready s := by
    intro r h1 g1
    rcases List.mem_append.1 h1 with h1 | h1
    · exact (hr.1 r h1).2 g1
    · obtain rfl := List.mem_singleton.1 h1
      exact hr.2 _ hgn _ hyt
  have hsub : ∀ r ∈ a ++ (m.activations ++ tl), r ∈ U ∧ (r ∈ a ++ x :: (m.net invalidate).map NetLayer.out ∨ r = g.yT) := by
    intro r h1
    have key : r ∈ p.toList ∨ r = x ∨ r ∈ (m.net invalidate).map NetLayer.out ∨ r = g.yT → r ∈ U := by
      intro h
      simp only [U, List.mem_append, List.mem_cons, List.mem_singleton, List.not_mem_nil, or_false]
      tauto
    rcases List.mem_append.1 h1 with h1 | h1
    · exact ⟨key (.inl (ha r h1)), .inl (List.mem_append_left _ h1)⟩
    rcases List.mem_append.1 h1 with h1 | h1
    · rcases c1 r h1 with e | e
      · exact ⟨key (.inr (.inl e)), .inl (by simp [e])⟩
      · exact ⟨key (.inr (.inr (.inl e))), .inl (List.mem_append_right _ (List.mem_cons_of_mem _ e))⟩
    · obtain ⟨l, hl, h1⟩ := (htl r).1 h1
      rcases c3 l hl r h1 with e | e
      · exact ⟨key (.inr (.inr (.inl e))), .inl (List.mem_append_right _ (List.mem_cons_of_mem _ e))⟩
      · exact ⟨key (.inr (.inr (.inr e))), .inr e⟩
  have hcl : ∀ r ∈ a ++ x :: (m.net invalidate).map NetLayer.out, r ∈ U ∧ r ∈ a ++ (m.activations ++ tl) := by
    intro r h1
    have h2 : r ∈ a ++ (m.activations ++ tl) := by
      rcases List.mem_append.1 h1 with h1 | h1
      · exact List.mem_append_left _ h1
      · refine List.mem_append_right _ ?_
        rcases List.mem_cons.1 h1 with rfl | h1
        · exact List.mem_append_left _ c2
        · rcases c4 r h1 with h | ⟨l, hl, h⟩
          · exact List.mem_append_left _ h
          · exact List.mem_append_right _ ((htl r).2 ⟨l, hl, h⟩)
    exact ⟨(hsub r h2).1, h2⟩
  refine (clearGrads_runs hinj _ (fun r h => (hsub r h).1) s hready).imp ?_ ?_
  · intro i hi
    obtain ⟨r, hr1, hi⟩ := List.mem_flatMap.1 hi
    rcases (hsub r hr1).2 with h | rfl
    · exact List.mem_append_left _ (List.mem_flatMap.2 ⟨r, h, hi⟩)
    · refine List.mem_append_right _ (List.mem_flatMap.2 ⟨g.toNet, hgn, ?_⟩)
      have : i = g.yT.grad.id := by
        by_cases e : g.yT.gradRequired = true
        · simpa [Moments.gradIds, e] using hi
        · simp [Moments.gradIds, e] at hi
      rw [this]
      exact List.mem_map_of_mem hyt
  · rintro s' c ⟨q1, q2⟩
    have hval : ∀ T : Tensor, T.Ready s → (∀ i ∈ (a ++ (m.activations ++ tl)).flatMap Moments.gradIds, T.id ≠ i) → T.Ready s' :=
      fun T h1 h2 => c.ready h1 fun hi => h2 _ hi rfl
    have hgid : ∀ i ∈ (a ++ (m.activations ++ tl)).flatMap Moments.gradIds,
        (∃ r ∈ x :: p.toList ++ (m.net invalidate).map NetLayer.out, i ∈ r.gradIds) ∨ (i = g.yT.grad.id ∧ g.yT.gradRequired = true) := by
      intro i hi
      obtain ⟨r, hr1, hi⟩ := List.mem_flatMap.1 hi
      rcases List.mem_append.1 (hsub r hr1).1 with h | h
      · exact .inl ⟨r, h, hi⟩
      · obtain rfl := List.mem_singleton.1 h
        by_cases e : g.yT.gradRequired = true
        · exact .inr ⟨by simpa [Moments.gradIds, e] using hi, e⟩
        · simp [Moments.gradIds, e] at hi
    refine ⟨⟨fun r hr1 => ⟨hval _ (hr.1 r hr1).1 ?_, fun g1 => q1 r (List.mem_append_left _ hr1) g1⟩, ?_⟩, ?_⟩
    · rintro i hi e
      rcases hgid i hi with ⟨r', h1, h2⟩ | h2
      · exact value_not_gradIds hall hr1 h1 (e ▸ h2)
      · exact htmp g.toNet hgn _ (List.mem_map_of_mem hyt) (List.mem_flatMap.2 ⟨r, hr1, by rw [← h2.1, ← e]; exact r.value_mem_ids⟩)
    · intro l hl T hT
      by_cases hi : T.id ∈ (a ++ (m.activations ++ tl)).flatMap Moments.gradIds
      · rcases hgid _ hi with ⟨r', h1, h2⟩ | h2
        · exact absurd (List.mem_flatMap.2 ⟨r', h1, gradIds_subset h2⟩) (htmp l hl _ (List.mem_map_of_mem hT))
        · rw [temps_inj hm.net.ids hl hgn hT hyt h2.1]
          exact q1 g.yT (by simp [U]) h2.2
      · exact c.ready (hr.2 l hl T hT) hi
    · intro r hr1 g1
      obtain ⟨h1, h2⟩ := hcl r hr1
      exact ⟨q1 r h1 g1, q2 r h1 g1 (.inl h2)⟩

/-- **Clearing of gradients.** `clear_gradients` makes the gradients of all parameters, of the input (if required) and of all activations zero, `clear_activations_grads` those of the input and
of all activations, whatever they contained; all values are unchanged, and in the second case also the gradients of the parameters. -/
theorem C62_clear (h : MixArgs x n B q E C k tB tq next) (he : mlpMixer x E k C next = .ok (m, ts, next')) (hh : m.Has k p out) {s : Store ℝ}
    (hr : NetReady (x :: p.toList) (m.net invalidate) s) :
    let outs := (m.net invalidate).map NetLayer.out
    let temps := (m.net invalidate).flatMap fun l => l.temps.map Tensor.id
    Runs m.clearGradients s ((p.toList ++ x :: outs).flatMap Moments.gradIds ++ temps)
      (fun s' => NetReady (x :: p.toList) (m.net invalidate) s' ∧ ∀ r ∈ p.toList ++ x :: outs, r.GradHolds s' (fun _ => 0)) ∧
    Runs m.clearActivationsGrads s ((x :: outs).flatMap Moments.gradIds ++ temps)
      (fun s' => NetReady (x :: p.toList) (m.net invalidate) s' ∧ ∀ r ∈ x :: outs, r.GradHolds s' (fun _ => 0)) ∧
    (∀ r ∈ x :: p.toList, r.value.id ∉ (p.toList ++ x :: outs).flatMap Moments.gradIds ++ temps) ∧
    ∀ r ∈ p.toList, r.grad.id ∉ (x :: outs).flatMap Moments.gradIds ++ temps := by
  obtain ⟨hm, -, -⟩ := built h he hh invalidate
  obtain ⟨hall, htmp⟩ := netIds_allMoments hm.net.ids
  have e1 : m.clearActivationsGrads = clearGrads (α := ℝ) (m.activations ++ m.layers.flatMap MixLayer.temporaries) := by
    rw [MlpMixer.clearActivationsGrads, clearGrads_flatMap, clearGrads_append]
  intro outs temps
  refine ⟨?_, ?_, ?_, ?_⟩
  · have e2 : m.clearGradients = clearGrads (α := ℝ) (p.toList ++ (m.activations ++ (m.layers.flatMap MixLayer.temporaries ++ m.layers.flatMap MixLayer.temporaries))) := by
      rw [MlpMixer.clearGradients, e1, MlpMixer.clearTmpGrads, clearGrads_flatMap, hm.params, ← List.append_assoc m.activations, clearGrads_append p.toList, clearGrads_append (m.activations ++ _), seqAsync_cons]
    rw [e2]
    exact clear_all hm hr _ (fun _ h => h) _ (by simp)
  · rw [e1]
    exact clear_all hm hr [] (by simp) _ (by simp)
  · intro r hr1 hi
    rcases List.mem_append.1 hi with hi | hi
    · obtain ⟨r', h1, h2⟩ := List.mem_flatMap.1 hi
      refine value_not_gradIds hall (List.mem_append_left _ hr1) (m' := r') ?_ h2
      simp only [List.mem_append, List.mem_cons, outs] at h1 ⊢
      tauto
    · obtain ⟨l, hl, hi⟩ := List.mem_flatMap.1 hi
      exact htmp l hl _ hi (List.mem_flatMap.2 ⟨r, List.mem_append_left _ hr1, r.value_mem_ids⟩)
  · intro r hr1 hi
    have hrq := (hm.net.wf r (List.mem_append_left _ hr1)).2
    have hgi : r.grad.id ∈ r.ids := by simp [Moments.ids, Moments.gradIds, hrq]
    have hrm : r ∈ [x] ++ p.toList ++ (m.net invalidate).map NetLayer.out := by simp [hr1]
    rcases List.mem_append.1 hi with hi | hi
    · obtain ⟨r', h1, h2⟩ := List.mem_flatMap.1 hi
      have : r' = r := by
        refine ids_inj hall ?_ hrm (gradIds_subset h2) hgi
        simp only [List.mem_append, List.mem_cons, outs] at h1 ⊢
        tauto
      subst this
      have hd := values_nodup hall
      rw [List.map_append, List.map_append, List.nodup_append, List.nodup_append] at hd
      rcases List.mem_cons.1 h1 with rfl | h1
      · exact hd.1.2.2 r'.value.id (by simp) _ (List.mem_map.2 ⟨r', hr1, rfl⟩) rfl
      · exact hd.2.2 r'.value.id (List.mem_append_right _ (List.mem_map.2 ⟨r', hr1, rfl⟩)) _ (List.mem_map.2 ⟨r', h1, rfl⟩) rfl
    · obtain ⟨l, hl, hi⟩ := List.mem_flatMap.1 hi
      exact htmp l hl _ hi (List.mem_flatMap.2 ⟨r, hrm, hgi⟩)

/-- **A training step.** After `clear_gradients` and `forward_async`, whatever activations and gradients contained before, the output of the MLP-Mixer is in the last activation; if then `dy` is
stored into the gradient of the output, `backward_async` leaves in the gradients of all parameters (and of the input, if it requires a gradient) the gradient of the scalar product of `dy` and the output. -/
theorem C62_step (h : MixArgs x n B q E C k tB tq next) (he : mlpMixer x E k C next = .ok (m, ts, next')) (hh : m.Has k p out) {s : Store ℝ} {env : Env}
    (hr : NetReady (x :: p.toList) (m.net invalidate) s) (hv : ∀ r ∈ x :: p.toList, r.value.Holds s (env r.value.id)) :
    let outs := (m.net invalidate).map NetLayer.out
    Runs (seqAsync [m.clearGradients, m.forwardAsync]) s
      (((p.toList ++ x :: outs).flatMap Moments.gradIds ++ (m.net invalidate).flatMap fun l => l.temps.map Tensor.id) ++ fwdIds (m.net invalidate)) (fun s1 =>
        out.value.Holds s1 (mixOut n q E (p.map fun m => env m.value.id) (env x.value.id)) ∧
        ∀ (dy : List Nat → ℝ) (s2 : Store ℝ), OnlyChanged [out.grad.id] s1 s2 → out.grad.Ready s2 → out.grad.Holds s2 dy →
          Runs (m.backwardAsync invalidate) s2 (bwdIds (m.net invalidate)) (fun s3 => NetReady (x :: p.toList) (m.net invalidate) s3 ∧
            ∀ r ∈ x :: p.toList, r.gradRequired = true → ∃ g : List Nat → ℝ, r.grad.Holds s3 g ∧ ∀ J ∈ box r.value.shape,
              HasDerivAt (fun t => ∑ I ∈ box [C, B], dy I * mixOut n q E (p.map fun m => env.shift r.value.id J t m.value.id) (env.shift r.value.id J t x.value.id) I) (g J) 0)) := by
  intro outs
  obtain ⟨hm, -, -⟩ := built h he hh invalidate
  obtain ⟨hall, htmp⟩ := netIds_allMoments hm.net.ids
  obtain ⟨k1, -, k3, -⟩ := C62_clear h he hh hr
  refine k1.cons' (fun i hi => List.mem_append_left _ hi) ?_
  rintro s0 c0 ⟨q1, q2⟩
  obtain ⟨f1, f2, f3⟩ := C62_forward h he hh q1 (env := env) fun r hr1 => c0.holds (hv r hr1) (k3 r hr1)
  refine f1.cons' (fun i hi => List.mem_append_right _ hi) ?_
  rintro s1 c1 ⟨p1, p2⟩
  refine Runs.nil ⟨p1, fun dy s2 c2 d1 d2 => ?_⟩
  have hog : out.gradRequired = true := (hm.net.wf out (List.mem_append_right _ hm.output)).2
  have hoi : out.grad.id ∈ out.gradIds := by simp [Moments.gradIds, hog]
  have hom : out ∈ [x] ++ p.toList ++ (m.net invalidate).map NetLayer.out := List.mem_append_right _ hm.output
  have hp2 : Propagated (x :: p.toList) (m.net invalidate) env s2 := by
    refine ⟨fun r hr1 => ?_, fun l hl => ?_⟩
    · have hne : r.value.id ∉ [out.grad.id] := fun hi => value_not_gradIds hall hr1 hom (List.mem_singleton.1 hi ▸ hoi)
      exact ⟨c2.ready (p2.1 r hr1).1 hne, c2.holds (p2.1 r hr1).2 hne⟩
    · have hne : ∀ T ∈ l.temps, T.id ∉ [out.grad.id] := fun T hT hi =>
        htmp l hl T.id (List.mem_map_of_mem hT) (List.mem_flatMap.2 ⟨out, hom, List.mem_singleton.1 hi ▸ gradIds_subset hoi⟩)
      exact ⟨(hm.net.correct l hl).keep _ _ _ _ c2 hne (p2.2 l hl).1, (p2.2 l hl).2.changed c2 hne⟩
  have hz : ∀ r ∈ x :: p.toList ++ outs, r.gradRequired = true → r ≠ out → r.grad.Ready s2 ∧ r.grad.Holds s2 (fun _ => 0) := by
    intro r hr1 hr2 hne
    have h0 := q2 r (by simp only [List.mem_append, List.mem_cons] at hr1 ⊢; tauto) hr2
    have n1 := f3 r hr1 hr2
    have n2 : r.grad.id ∉ [out.grad.id] := fun hi => hne (ids_inj hall hr1 hom (i := r.grad.id) (by simp [Moments.ids, Moments.gradIds, hr2]) (by
      rw [List.mem_singleton.1 hi]; exact gradIds_subset hoi))
    exact ⟨c2.ready (c1.ready h0.1 n1) n2, c2.holds (c1.holds h0.2 n1) n2⟩
  have hgo : ∀ r ∈ x :: p.toList, r ≠ out := by
    rintro r hr1 rfl
    have hd := values_nodup hall
    rw [List.map_append, List.nodup_append] at hd
    exact hd.2.2 r.value.id (List.mem_map.2 ⟨r, hr1, rfl⟩) _ (List.mem_map.2 ⟨r, hm.output, rfl⟩) rfl
  refine (C62_backward h he hh hp2 ⟨d1, d2⟩ (fun r hr1 hne => hz r (List.mem_append_right _ hr1) (hm.net.wf r (List.mem_append_right _ hr1)).2 hne) (G := fun _ _ => 0)
    fun r hr1 hr2 => hz r (List.mem_append_left _ hr1) hr2 (hgo r hr1)).imp (fun _ h => h) ?_
  rintro s3 _ ⟨w1, g, w2, w3⟩
  refine ⟨w1, fun r hr1 hr2 => ⟨g r.value.id, ?_, w3 r hr1 hr2⟩⟩
  have := (w2 r hr1 hr2).2
  simpa only [zero_add] using this

/-! ### Special cases -/

/-- **`GAP` overwrites.** Unlike the other layers, whose `backward_async` adds to the gradients, `GAP.backward_async` replaces the gradient of its input: what it contained before (e.g. the
contribution of another layer which uses the same activation) is lost. -/
theorem C62_gap_overwrites {l : GapLayer} (fit : l.Fits) (ids : l.toNet.ids.Nodup) {s : Store ℝ} {dy g0 : List Nat → ℝ} (ht : AllReady l.toNet.temps s) (hdr : l.y.grad.Ready s)
    (hdy : l.y.grad.Holds s dy) (hgr : l.x.grad.Ready s) (hg : l.x.grad.Holds s g0) :
    Runs l.backwardAsync s [l.x.grad.id, l.yT.value.id, l.yT.grad.id] (fun s' => l.x.grad.Holds s' (fun J => dy [J.getD 2 0, J.getD 1 0] / (l.x.value.shape.getD 0 0 : ℕ))) := by
  have hx := fit.required.1
  obtain ⟨n, b, e, sx, -⟩ := fit.shape
  have hgs := (fit.grads l.x (by simp)).1
  refine (gap_backward_runs fit ids 0 ht hdr hdy hgr hg).imp (by simp [GapLayer.toNet, Moments.gradIds, hx]) ?_
  rintro s' _ ⟨-, -, -, q⟩ I hI
  rw [q I hI]
  rw [hgs, sx] at hI
  obtain ⟨i, j, r, rfl⟩ : ∃ i j r, I = [i, j, r] := by
    have := hI.length
    simp only [List.length_cons, List.length_nil] at this
    exact List.length_eq_three.1 this
  simp only [List.eraseIdx_cons_zero, List.drop_succ_cons, List.drop_zero, List.take_succ_cons, List.take_zero, List.cons_append, List.nil_append, List.getD_cons_succ, List.getD_cons_zero, zero_mul, zero_add]
  rw [one_div, inv_mul_eq_div]

/-- The constructor rejects fewer than one mixer layer, and inputs with fewer than three dimensions. -/
theorem C62_rejects {nLayers : Int} (h : nLayers < 1 ∨ x.value.shape.length < 3) : Throws (mlpMixer (α := ℝ) x E nLayers C next) := by
  unfold mlpMixer
  refine throws_step fun h1 => ?_
  have hl : x.value.shape.length < 3 := by omega
  have h2 : Throws (pyIndex x.value.shape 2) := by
    unfold pyIndex
    exact throws_pos (by omega)
  by_cases h0 : x.value.shape = []
  · have : Throws (pyIndex x.value.shape 0) := by
      unfold pyIndex
      exact throws_pos (by simp [h0])
    exact this.bind
  · cases hs : x.value.shape with
    | nil => exact absurd hs h0
    | cons a l =>
      rw [hs] at h2
      have : pyIndex (a :: l) 0 = .ok a := by
        show (throwIf ((0 : Int) < 0 ∨ ((a :: l).length : Int) ≤ 0) "IndexError" >>= fun _ => .ok a) = .ok a
        rw [throwIf_neg (by rw [List.length_cons]; omega), M.bind_ok]
      rw [this, M.bind_ok]
      exact h2.bind

private theorem seq_throws {a c : List (M (List (Task1 ℝ)))} {b : M (List (Task1 ℝ))} {t : List (Task1 ℝ)} (ha : seqAsync a = .ok t) (hb : Throws b) : Throws (seqAsync (a ++ b :: c)) := by
  rw [seqAsync_append, ha]
  have h1 : Throws (seqAsync (b :: c)) := by
    unfold seqAsync
    exact hb.bind
  unfold seqAsync
  rw [M.bind_ok]
  have h2 : Throws (seqAsync [seqAsync (b :: c)]) := by
    unfold seqAsync
    exact h1.bind
  exact h2.bind

private theorem mixers_prefix (k : Nat) : ∀ (b b' : MixBuilder ℝ), MixBuilder.mixers k b = .ok b' → ∃ ls, b'.layers = b.layers ++ ls := by
  induction k with
  | zero =>
    intro b b' h
    exact ⟨[], by rw [← Except.ok.inj h]; simp⟩
  | succ k ih =>
    intro b b' h
    rw [MixBuilder.mixers, M.bind_eq_ok] at h
    obtain ⟨b1, h1, h2⟩ := h
    rw [MixBuilder.mixer, M.bind_eq_ok] at h1
    obtain ⟨y, -, h1⟩ := h1
    rw [M.bind_eq_ok] at h1
    obtain ⟨r, -, h1⟩ := h1
    obtain ⟨ls, hls⟩ := ih _ _ h2
    rw [← Except.ok.inj h1] at hls
    exact ⟨.mixer r.1 :: ls, by rw [hls]; simp⟩

/-- **Tiled patches.** If the dimension of the patches is split into tiles, the constructor does not object, but `forward_async` of the model raises an exception: the output of the first MLP
has a single tile in this dimension, the residual connection needs equal tiles. -/
theorem C62_tiled_patches {tn : Nat} (hs : x.value.shape = [n, B, q]) (ht : x.value.basetile = [tn, tB, tq]) (hne : tn ≠ n) (ux : x.Usable) (hid : x.ids.Nodup) (hlt : ∀ i ∈ x.ids, i < next)
    (he : 0 < E) (hk : 0 < k) (hm : mlpMixer x E k C next = .ok (m, ts, next')) : Throws m.forwardAsync := by
  have hw := ux.1
  rw [Tensor.WF, hs] at hw
  have n0 : 0 < n := hw.1 n (by simp)
  have h0 : NGrown [x] [] [] next := NGrown.init (by simpa using hid) (by simpa using hlt)
  obtain ⟨l, g1, x1, b1, c1, h1, u1, r1, f1, s1, t1, z1, v1⟩ := h0.linear (x := x) (by simp) ux .L (by simp [Tensor.ndim, hs]) he he none (by simp)
  simp only [NetLayer.resOpt, List.nil_append] at h1
  rw [hs] at s1
  rw [ht] at t1
  replace s1 : l.y.value.shape = [n, B, E] := s1
  replace t1 : l.y.value.basetile = [tn, tB, E] := t1
  obtain ⟨no, ts2, g2, x2, c2, h2, u2, r2, f2, s2, t2, v2, z2, k2⟩ := h1.layerNorm true (x := l.y) (by simp [Linear.toNet]) u1 r1 (a := 2) (by simp [s1]) mixEps_pos false
  rw [s1] at s2
  rw [t1] at t2
  obtain ⟨l1, g3, x3, b3, c3, h3, u3, r3, f3, s3, t3, z3, v3⟩ := h2.linear (x := no.y) (by simp [LayerNorm.toNet]) u2 .R (by simp [Tensor.ndim, s2]) (S := n * 4) (B := n * 4) (by omega) (by omega) none (by simp)
  simp only [NetLayer.resOpt] at h3
  obtain ⟨ac, g4, x4, c4, h4, u4, r4, f4, s4, t4, v4⟩ := h3.act (x := l1.y) (by simp [Linear.toNet]) u3
  rw [s2] at s3
  rw [s3] at s4
  obtain ⟨l2, g5, x5, b5, c5, h5, u5, r5, f5, s5, t5, z5, v5⟩ := h4.linear (x := ac.y) (by simp [Act.toNet]) u4 .R (by rw [Tensor.ndim, s4]; simp [linearY, exceptLast]) (S := n) (B := n) n0 n0 none (by simp)
  simp only [NetLayer.resOpt] at h5
  have htile : l2.y.value.basetile ≠ l.y.value.basetile := by
    rw [t5, t4, t3, t2, t1]
    intro e
    simp only [linearY, List.cons_append, List.nil_append, List.cons.injEq] at e
    exact hne e.1.symm
  obtain ⟨k, rfl⟩ : ∃ k', k = k' + 1 := ⟨k - 1, by omega⟩
  have p0 : pyIndex x.value.shape 0 = .ok n := by simp [pyIndex, hs, throwIf, M.bind_ok]
  have p2 : pyIndex x.value.shape 2 = .ok q := by simp [pyIndex, hs, throwIf, M.bind_ok]
  have hlit : (FP.lit (1 / 100000) : ℝ) = mixEps := by
    show ((1 / 100000 : ℚ) : ℝ) = mixEps
    unfold mixEps
    push_cast
    norm_num
  have gmlp : MixerMlp.generate no.y .R (next + 6 + 10) = .ok ⟨.R, no.y, l2.y, l1, l2, ac⟩ := by
    have hsz : mixerMlpSize no.y .R = .ok n := by simp [mixerMlpSize, pyIndex, s2, throwIf, M.bind_ok]
    rw [MixerMlp.generate, hsz, M.bind_ok, g3, M.bind_ok, g4, M.bind_ok, show next + 6 + 10 + 8 = next + 6 + 10 + 6 + 2 by omega, g5, M.bind_ok]
  rw [mlpMixer, throwIf_neg (by omega), M.bind_ok, p0, M.bind_ok, p2, M.bind_ok, g1, M.bind_ok, Int.toNat_natCast, M.bind_eq_ok] at hm
  obtain ⟨b, hb, hm⟩ := hm
  rw [MixBuilder.mixers, M.bind_eq_ok] at hb
  obtain ⟨b1', hb1, hb⟩ := hb
  have hlast : MixBuilder.last (α := ℝ) ⟨[x, l.y], [.linear l], next + 6, []⟩ = .ok l.y := rfl
  rw [MixBuilder.mixer, hlast, M.bind_ok, M.bind_eq_ok] at hb1
  obtain ⟨r, hr, hb1⟩ := hb1
  rw [MixerLayer.generate, hlit, M.bind_eq_ok] at hr
  obtain ⟨r1', e1, hr⟩ := hr
  change LayerNorm.generate l.y 2 mixEps (next + 6) false = _ at e1
  obtain rfl : (no, ts2) = r1' := Except.ok.inj (g2.symm.trans e1)
  rw [M.bind_eq_ok] at hr
  obtain ⟨ml, e2, hr⟩ := hr
  change MixerMlp.generate no.y .R (next + 6 + 10) = _ at e2
  obtain rfl := Except.ok.inj (gmlp.symm.trans e2)
  rw [M.bind_eq_ok] at hr
  obtain ⟨r3, -, hr⟩ := hr
  rw [M.bind_eq_ok] at hr
  obtain ⟨ml2, -, hr⟩ := hr
  have hr := Except.ok.inj hr
  obtain ⟨ls, hls⟩ := mixers_prefix k _ _ hb
  have hb1 := Except.ok.inj hb1
  rw [← hb1] at hls
  rw [M.bind_eq_ok] at hm
  obtain ⟨yl, -, hm⟩ := hm
  rw [M.bind_eq_ok] at hm
  obtain ⟨gl, -, hm⟩ := hm
  rw [M.bind_eq_ok] at hm
  obtain ⟨cl, -, hm⟩ := hm
  have hm : (⟨b.acts ++ [gl.y] ++ [cl.y], b.layers ++ [MixLayer.gap gl] ++ [MixLayer.linear cl]⟩ : MlpMixer ℝ) = m := congrArg Prod.fst (Except.ok.inj hm)
  rw [← hm]
  have hmix : r.1 = ⟨l.y, ml2.y, no, r3.1, ⟨.R, no.y, l2.y, l1, l2, ac⟩, ml2⟩ := by rw [← hr]
  show Throws (seqAsync ((b.layers ++ [MixLayer.gap gl] ++ [MixLayer.linear cl]).map MixLayer.forwardAsync))
  rw [hls]
  -- the layers before the residual connection
  have hids := h5.ids
  obtain ⟨s, hrd, hvs, -⟩ := net_registered h5.ids (by
    intro r hr
    simp only [List.mem_append] at hr
    rcases hr with (hr | hr) | hr
    · obtain rfl := List.mem_singleton.1 hr
      exact ux
    · exact (h5.wf r (List.mem_append.2 (.inl (by simp at hr ⊢; tauto)))).1
    · exact (h5.wf r (List.mem_append.2 (.inr hr))).1) h5.temps (fun _ _ => 0) (fun _ _ => 0)
  obtain ⟨tasks, -, hok, -⟩ := net_forward _ _ s (fun _ _ => 0) h5.correct h5.order h5.ids (h5.valid _) (fun r hr => ⟨(hrd.1 r (List.mem_append_left _ hr)).1, hvs r hr⟩) (by
    intro l hl T hT
    rcases List.mem_cons.1 hT with rfl | hT
    · exact (hrd.1 l.out (List.mem_append_right _ (List.mem_map_of_mem hl))).1
    · exact hrd.2 l hl T hT)
  have hadd : Throws (addAsync (α := ℝ) 1 l.y.value 1 l2.y.value) := (C11_rejects2 u1.1 u5.1 (.inr fun e => htile e.symm) 1 1).2.1
  have hpre : seqAsync [l.forwardAsync, no.forwardAsync, seqAsync [l1.forwardAsync, ac.forwardAsync, l2.forwardAsync]] = .ok tasks := by
    rw [← hok]
    exact seqAsync_flat [l.forwardAsync, no.forwardAsync] [l1.forwardAsync, ac.forwardAsync, l2.forwardAsync] []
  have key := seq_throws (c := [r3.1.forwardAsync, ml2.forwardAsync, addAsync 1 r3.1.x.value 1 ml2.y.value] ++ (ls ++ [MixLayer.gap gl] ++ [MixLayer.linear cl]).map MixLayer.forwardAsync) hpre hadd
  have hfl := seqAsync_flat [l.forwardAsync] [no.forwardAsync, seqAsync [l1.forwardAsync, ac.forwardAsync, l2.forwardAsync], addAsync 1 l.y.value 1 l2.y.value, r3.1.forwardAsync, ml2.forwardAsync,
    addAsync 1 r3.1.x.value 1 ml2.y.value] ((ls ++ [MixLayer.gap gl] ++ [MixLayer.linear cl]).map MixLayer.forwardAsync)
  have e3 : ([MixLayer.linear l] ++ [MixLayer.mixer r.1] ++ ls ++ [MixLayer.gap gl] ++ [MixLayer.linear cl]).map MixLayer.forwardAsync = [l.forwardAsync] ++ (MixLayer.mixer r.1).forwardAsync ::
      (ls ++ [MixLayer.gap gl] ++ [MixLayer.linear cl]).map MixLayer.forwardAsync := by simp [MixLayer.forwardAsync]
  rw [e3, hmix]
  exact Eq.mp (congrArg Throws hfl.symm) key

/-- The registered state of a model: the hypotheses of the theorems can be met, for each model and any contents. -/
theorem C62_registered (h : MixArgs x n B q E C k tB tq next) (he : mlpMixer x E k C next = .ok (m, ts, next')) (hh : m.Has k p out) (env G : Env) :
    ∃ s : Store ℝ, NetReady (x :: p.toList) (m.net invalidate) s ∧ (∀ r ∈ x :: p.toList, r.value.Holds s (env r.value.id)) ∧
      GradsHold (x :: p.toList ++ (m.net invalidate).map NetLayer.out) s G := by
  obtain ⟨hm, -, -⟩ := built h he hh invalidate
  refine net_registered hm.net.ids ?_ hm.net.temps env G
  intro r hr
  simp only [List.mem_append] at hr
  rcases hr with (hr | hr) | hr
  · obtain rfl := List.mem_singleton.1 hr
    exact h.usable
  · exact (hm.net.wf r (List.mem_append.2 (.inl hr))).1
  · exact (hm.net.wf r (List.mem_append.2 (.inr hr))).1

/-! ### The hypotheses can be met -/

/-- Batches of 4 images of 6 patches of 5 elements, the batches in tiles of 3 and the patches in tiles of 2 elements. -/
def mixExample : Moments := ⟨⟨0, [6, 4, 5], [6, 3, 2]⟩, ⟨1, [6, 4, 5], [6, 3, 2]⟩, true⟩

theorem mixExample_ok : MixArgs mixExample 6 4 5 7 3 2 3 2 2 := by
  refine ⟨rfl, rfl, ⟨?_, rfl, rfl⟩, ?_, ?_, by decide, by decide, by decide⟩ <;> simp [mixExample, Tensor.WF, Pos, Moments.ids, Moments.gradIds]

/-- A model with two mixer layers, from any contents of parameters and input; the step computes output and gradients. -/
example (env : Env) : ∃ (m : MlpMixer ℝ) (ts : List (Task1 ℝ)) (p : MixP Moments) (out : Moments) (s : Store ℝ), mlpMixer mixExample 7 2 3 2 = .ok (m, ts, 114) ∧ m.Has 2 p out ∧
    NetReady (mixExample :: p.toList) (m.net true) s ∧ ∃ ids, Runs (seqAsync [m.clearGradients, m.forwardAsync]) s ids (fun s1 =>
      out.value.Holds s1 (mixOut 6 5 7 (p.map fun m => env m.value.id) (env mixExample.value.id))) := by
  obtain ⟨m, ts, p, out, e, hh, -⟩ := C62_constructor mixExample_ok true
  obtain ⟨s, hs, hv, -⟩ := C62_registered (invalidate := true) mixExample_ok e hh env (fun _ _ => 0)
  exact ⟨m, ts, p, out, s, e, hh, hs, _, (C62_step mixExample_ok e hh hs hv).imp (fun _ h => h) fun _ _ h => h.1⟩

end NNTile
