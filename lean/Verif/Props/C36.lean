import Verif.Spec.BaseModel
import Verif.Props.C35
import Verif.Props.C47
import Verif.Props.C50
/-!
# C36: forward and backward propagation of models of any depth
-/
namespace NNTile
open Finset
variable {asIdx : ℝ → Int} {invalidate : Bool} {given : List Moments} {layers : List (PyLayer ℝ)}

/-! ### From the identities of the network to those of each layer -/

private theorem ins_ids_nodup {given ins : List Moments} (h : (given.flatMap Moments.ids).Nodup) (hsub : ∀ m ∈ ins, m ∈ given)
    (hi : (ins.map fun m => m.value.id).Nodup) : (ins.flatMap Moments.ids).Nodup := by
  induction ins with
  | nil => simp
  | cons m L ih =>
    rw [List.map_cons, List.nodup_cons] at hi
    rw [List.flatMap_cons, List.nodup_append]
    refine ⟨(List.nodup_flatMap.1 h).1 m (hsub m (by simp)), ih (fun m' hm' => hsub m' (by simp [hm'])) hi.2, ?_⟩
    rintro i hi1 j hj rfl
    obtain ⟨m', hm', hj⟩ := List.mem_flatMap.1 hj
    have := ids_inj h (hsub m (by simp)) (hsub m' (by simp [hm'])) hi1 hj
    exact hi.1 (List.mem_map.2 ⟨m', hm', by rw [this]⟩)

private theorem layer_ids (ls : List NetLayer) : ∀ given, Ordered given ls → (netIds given ls).Nodup → (∀ l ∈ ls, (l.ins.map fun m => m.value.id).Nodup) →
    ∀ l ∈ ls, l.ids.Nodup := by
  induction ls with
  | nil => simp
  | cons l ls ih =>
    intro given ho hn hi l' hl'
    have sp := sep_of_nodup hn
    rcases List.mem_cons.1 hl' with rfl | hl'
    · have hn1 : ((l'.out :: given).flatMap Moments.ids).Nodup := by
        have := sp.rest
        rw [netIds, List.nodup_append] at this
        exact this.1
      rw [List.flatMap_cons, List.nodup_append] at hn1
      have hp := (netIds_cons given l' ls).nodup_iff.1 hn
      rw [List.nodup_append] at hp
      unfold NetLayer.ids
      rw [List.nodup_append, List.nodup_append]
      have hmem : ∀ i ∈ l'.ins.flatMap Moments.ids, i ∈ given.flatMap Moments.ids := by
        intro i hi
        obtain ⟨m, hm, hi⟩ := List.mem_flatMap.1 hi
        exact List.mem_flatMap.2 ⟨m, ho.1 m hm, hi⟩
      refine ⟨⟨ins_ids_nodup hn1.2.1 ho.1 (hi l' (by simp)), hn1.1, ?_⟩, hp.2.1, ?_⟩
      · rintro i h1 j h2 rfl
        exact sp.out_given i h2 (hmem i h1)
      · rintro i h1 j h2 rfl
        refine sp.temps i h2 ?_
        rw [netIds, List.flatMap_cons]
        rcases List.mem_append.1 h1 with h1 | h1
        · exact List.mem_append_left _ (List.mem_append_right _ (hmem i h1))
        · exact List.mem_append_left _ (List.mem_append_left _ h1)
    · exact ih (l.out :: given) ho.2 sp.rest (fun l2 h2 => hi l2 (by simp [h2])) l' hl'

theorem _root_.NNTile.Attention.Fits.dims {l : Attention ℝ} {z t : AttnDims} (h : l.Fits z t) : l.dims = z := by
  obtain ⟨E, Ek, Ev, S, B, H, D⟩ := z
  simp only [Attention.dims, h.xq.1, h.xk.1, h.xv.1, h.wq.1, List.getD_cons_zero, List.getD_cons_succ]

/-- Each layer of a network satisfies the contract of C35. -/
theorem C36_layers (h : IsNetwork asIdx invalidate given layers) : ∀ l ∈ netOf asIdx invalidate layers, l.Correct := by
  intro l hl
  have hids := layer_ids _ _ h.order h.ids h.operands l hl
  obtain ⟨p, hp, rfl⟩ := List.mem_map.1 hl
  have hf := h.fits p hp
  cases p with
  | act l => exact C35_act hf hids
  | add l => exact C35_add hf hids
  | addSlice l =>
    obtain ⟨a, hf⟩ := hf
    exact C35_add_slice hf hids
  | embedding l =>
    obtain ⟨a, hf⟩ := hf
    exact C35_embedding hf asIdx hids
  | linear l =>
    obtain ⟨⟨M, K, N, hf⟩, hy⟩ := hf
    exact C35_linear hf hy hids
  | layerNorm n =>
    obtain ⟨⟨a, eps, hf⟩, hr, hw⟩ := hf
    have he : n.eps ^ 2 = eps := by
      rw [hf.eps, ← Real.sqrt_eq_rpow, Real.sq_sqrt hf.pos.le]
    simp only [PyLayer.toNet, he] at hids ⊢
    exact C35_layer_norm hf invalidate hr hw hids
  | attention n =>
    obtain ⟨z, t, hf⟩ := hf
    have hz : n.dims = z := hf.dims
    simp only [PyLayer.toNet, hz] at hids ⊢
    exact C47_attention hf asIdx invalidate hids
  | flash n =>
    obtain ⟨⟨z, t, hf, ht⟩, hm⟩ := hf
    obtain ⟨T, hm⟩ := Option.isSome_iff_exists.1 hm
    have hz : n.dims = z := hf.dims
    simp only [PyLayer.toNet, hz] at hids ⊢
    exact C50_flash_attention hf ht hm asIdx hids

/-- The tasks of a model are those of its network. -/
private theorem forward_eq (acts : List Moments) : (BaseModel.init acts layers).forwardAsync asIdx invalidate = netForward (netOf asIdx invalidate layers) := by
  unfold BaseModel.forwardAsync netForward netOf BaseModel.init
  rw [List.map_map]
  congr 1
  exact List.map_congr_left fun p _ => by cases p <;> rfl

private theorem backward_eq (acts : List Moments) :
    (BaseModel.init acts layers).backwardAsync asIdx invalidate = netBackward (netOf asIdx invalidate layers) := by
  unfold BaseModel.backwardAsync netBackward netOf BaseModel.init
  rw [← List.map_reverse, List.map_map]
  congr 1
  exact List.map_congr_left fun p _ => by cases p <;> rfl

/-- **Forward propagation.** Whatever the old contents of the activations, `forward_async` of a model of any depth computes all activations as the functions of the
inputs and parameters which the layers mean; only the outputs of the layers and temporary tensors are changed. -/
theorem C36_forward (acts : List Moments) (h : IsNetwork asIdx invalidate given layers) {s : Store ℝ} {env : Env}
    (hr : NetReady given (netOf asIdx invalidate layers) s) (hv : ∀ m ∈ given, m.value.Holds s (env m.value.id)) (hval : NetValid env (netOf asIdx invalidate layers)) :
    Runs ((BaseModel.init acts layers).forwardAsync asIdx invalidate) s (fwdIds (netOf asIdx invalidate layers))
      (Propagated given (netOf asIdx invalidate layers) env) := by
  rw [forward_eq]
  refine net_forward _ given s env (C36_layers h) h.order h.ids hval (fun m hm => ⟨(hr.1 m (by simp [hm])).1, hv m hm⟩) ?_
  intro l hl T hT
  rcases List.mem_cons.1 hT with rfl | hT
  · exact (hr.1 l.out (List.mem_append_right _ (List.mem_map_of_mem hl))).1
  · exact hr.2 l hl T hT

/-- **Backward propagation.** After forward propagation, with gradients `G` in all activations and `G` in the inputs and parameters, `backward_async` adds to the
gradients of inputs and parameters the product of the transposed Jacobian of the network and the gradients of the activations. All tensors remain registered. -/
theorem C36_backward (acts : List Moments) (h : IsNetwork asIdx invalidate given layers) {s : Store ℝ} {env : Env}
    (hp : Propagated given (netOf asIdx invalidate layers) env s) (hreg : NetRegular env (netOf asIdx invalidate layers)) {G : Env}
    (hG : GradsHold (given ++ (netOf asIdx invalidate layers).map NetLayer.out) s G) :
    Runs ((BaseModel.init acts layers).backwardAsync asIdx invalidate) s (bwdIds (netOf asIdx invalidate layers)) (fun s' =>
      NetReady given (netOf asIdx invalidate layers) s' ∧
      ∃ g : Env, GradsHold given s' (fun i J => G i J + g i J) ∧ IsNetVJP given (netOf asIdx invalidate layers) env G g) := by
  rw [backward_eq]
  refine (net_backward _ given s env G (C36_layers h) h.order h.ids hp.1 hp.2 hreg hG).imp (fun _ h => h) fun s' hc hq => ⟨⟨?_, fun l hl => (hq.1 l hl).1⟩, hq.2⟩
  obtain ⟨hall, htmp⟩ := netIds_allMoments h.ids
  intro m hm
  refine ⟨hc.ready (hp.1 m hm).1 ?_, fun hr => ?_⟩
  · intro hi
    rcases h.order.bwdIds_mem hi with ⟨m', hm', hi'⟩ | ⟨l', hl', hi'⟩
    · exact value_not_gradIds hall hm (List.mem_append.2 hm') hi'
    · exact htmp l' hl' _ hi' (List.mem_flatMap.2 ⟨m, hm, m.value_mem_ids⟩)
  · rcases List.mem_append.1 hm with hm | hm
    · obtain ⟨g, hg, _⟩ := hq.2
      exact (hg m hm hr).1
    · obtain ⟨l, hl, rfl⟩ := List.mem_map.1 hm
      exact (hq.1 l hl).2

/-- The curve which moves one element. -/
private theorem shift_curve {given : List Moments} (hn : (given.map fun m => m.value.id).Nodup) {env : Env} {m : Moments} (hm : m ∈ given) (hr : m.gradRequired = true)
    (J : List Nat) : CurveAt given env (fun t => env.shift m.value.id J t) (fun i K => if i = m.value.id ∧ K = J then 1 else 0) := by
  intro m' hm'
  by_cases e : m'.value.id = m.value.id
  · have := List.inj_on_of_nodup_map hn hm' hm e
    subst this
    refine ⟨by simp [Env.shift], fun _ K _ => ?_, fun hf => by rw [hr] at hf; cases hf⟩
    by_cases hK : K = J
    · subst hK
      simpa [Env.shift] using (hasDerivAt_id (0 : ℝ)).const_add (env m'.value.id K)
    · simpa [Env.shift, hK] using hasDerivAt_const (0 : ℝ) (env m'.value.id K)
  · refine ⟨by simp [Env.shift, e], fun _ K _ => ?_, fun _ t => by simp [Env.shift, e]⟩
    simpa [Env.shift, e] using hasDerivAt_const (0 : ℝ) (env m'.value.id K)

/-- **Backpropagation.** Let the gradient of the activation `out` (the output of one of the layers) be `dy`, that of all other activations zero. Then the activation `out` is
differentiable with respect to each element of each input and parameter which requires a gradient, and `backward_async` adds the scalar product of `dy` and this
derivative to the element of the gradient. -/
theorem C36_jacobian (acts : List Moments) (h : IsNetwork asIdx invalidate given layers) {s : Store ℝ} {env : Env}
    (hp : Propagated given (netOf asIdx invalidate layers) env s) (hreg : NetRegular env (netOf asIdx invalidate layers)) {out : NetLayer}
    (hout : out ∈ netOf asIdx invalidate layers) {dy : List Nat → ℝ} (hdy : out.out.grad.Ready s ∧ out.out.grad.Holds s dy)
    (hzero : ∀ l ∈ netOf asIdx invalidate layers, l.out.value.id ≠ out.out.value.id → l.out.grad.Ready s ∧ l.out.grad.Holds s (fun _ => 0))
    {G : Env} (hG : GradsHold given s G) :
    Runs ((BaseModel.init acts layers).backwardAsync asIdx invalidate) s (bwdIds (netOf asIdx invalidate layers)) (fun s' =>
      NetReady given (netOf asIdx invalidate layers) s' ∧
      ∃ g : Env, GradsHold given s' (fun i J => G i J + g i J) ∧ ∀ m ∈ given, m.gradRequired = true → ∀ J ∈ box m.value.shape,
        ∃ D : List Nat → ℝ, (∀ I ∈ box out.out.value.shape, HasDerivAt (fun t => netEnv (env.shift m.value.id J t) (netOf asIdx invalidate layers) out.out.value.id I) (D I) 0) ∧
          g m.value.id J = ∑ I ∈ box out.out.value.shape, dy I * D I) := by
  classical
  set net := netOf asIdx invalidate layers with hnet
  have hall := (netIds_allMoments h.ids).1
  have hgn : (given.flatMap Moments.ids).Nodup := by
    rw [List.flatMap_append, List.nodup_append] at hall
    exact hall.1
  have hvn := values_nodup hgn
  have hav := values_nodup hall
  rw [List.map_append, List.nodup_append] at hav
  have hon : (net.map fun l => l.out.value.id).Nodup := by
    have := hav.2.1
    rw [List.map_map] at this
    exact this
  have hgo : ∀ m ∈ given, ∀ l ∈ net, m.value.id ≠ l.out.value.id := by
    intro m hm l hl e
    exact hav.2.2 _ (List.mem_map.2 ⟨m, hm, rfl⟩) _ (List.mem_map.2 ⟨l.out, List.mem_map_of_mem hl, rfl⟩) e
  let G' : Env := fun i => if i = out.out.value.id then dy else if i ∈ net.map (fun l => l.out.value.id) then fun _ => 0 else G i
  have hG' : GradsHold (given ++ net.map NetLayer.out) s G' := by
    intro m hm hr
    rcases List.mem_append.1 hm with hm | hm
    · have e1 : m.value.id ≠ out.out.value.id := hgo m hm out hout
      have e2 : m.value.id ∉ net.map (fun l => l.out.value.id) := by
        intro hi
        obtain ⟨l, hl, e⟩ := List.mem_map.1 hi
        exact hgo m hm l hl e.symm
      simp only [G', if_neg e1, if_neg e2]
      exact hG m hm hr
    · obtain ⟨l, hl, rfl⟩ := List.mem_map.1 hm
      by_cases e : l.out.value.id = out.out.value.id
      · have : l = out := List.inj_on_of_nodup_map hon hl hout e
        subst this
        simp only [G', if_true]
        exact hdy
      · simp only [G', if_neg e, if_pos (List.mem_map.2 ⟨l, hl, rfl⟩ : l.out.value.id ∈ net.map (fun l => l.out.value.id))]
        exact hzero l hl e
  refine (C36_backward acts h hp hreg hG').imp (fun _ h => h) ?_
  rintro s' _ ⟨hrd, g, h1, h2⟩
  refine ⟨hrd, g, ?_, ?_⟩
  · intro m hm
    have e1 : m.value.id ≠ out.out.value.id := hgo m hm out hout
    have e2 : m.value.id ∉ net.map (fun l => l.out.value.id) := by
      intro hi
      obtain ⟨l, hl, e⟩ := List.mem_map.1 hi
      exact hgo m hm l hl e.symm
    have := h1 m hm
    simp only [G', if_neg e1, if_neg e2] at this
    exact this
  · intro m hm hr J hJ
    obtain ⟨D, hD, hs⟩ := h2 _ _ (shift_curve hvn hm hr J)
    refine ⟨D out.out.value.id, hD out hout, ?_⟩
    have e1 : (net.map fun l => ∑ I ∈ box l.out.value.shape, G' l.out.value.id I * D l.out.value.id I).sum =
        ∑ I ∈ box out.out.value.shape, dy I * D out.out.value.id I := by
      have hsing : ∀ L : List NetLayer, (L.map fun l => l.out.value.id).Nodup → (∀ l ∈ L, l ∈ net) → out ∈ L →
          (L.map fun l => ∑ I ∈ box l.out.value.shape, G' l.out.value.id I * D l.out.value.id I).sum =
          ∑ I ∈ box out.out.value.shape, dy I * D out.out.value.id I := by
        intro L
        induction L with
        | nil => simp
        | cons l L ih =>
          intro hL hsub ho
          rw [List.map_cons, List.nodup_cons] at hL
          rw [List.map_cons, List.sum_cons]
          have hz : ∀ l' ∈ net, l'.out.value.id ≠ out.out.value.id → ∑ I ∈ box l'.out.value.shape, G' l'.out.value.id I * D l'.out.value.id I = 0 := by
            intro l' hl' e
            refine sum_eq_zero fun I _ => ?_
            simp only [G', if_neg e, if_pos (List.mem_map.2 ⟨l', hl', rfl⟩ : l'.out.value.id ∈ net.map (fun l => l.out.value.id)), zero_mul]
          rcases List.mem_cons.1 ho with rfl | ho
          · rw [sum_map_zero_of, add_zero]
            · simp only [G', if_true]
            · intro l' hl'
              refine hz l' (hsub l' (by simp [hl'])) fun e => hL.1 (List.mem_map.2 ⟨l', hl', e⟩)
          · rw [hz l (hsub l (by simp)) (fun e => hL.1 (List.mem_map.2 ⟨out, ho, e.symm⟩)), zero_add]
            exact ih hL.2 (fun l' hl' => hsub l' (by simp [hl'])) ho
      exact hsing net hon (fun l hl => hl) hout
    rw [← e1, hs, dotGrads, sum_map_single hvn hm, if_pos hr]
    · simp only [true_and, mul_ite, mul_one, mul_zero, sum_ite_eq', hJ, if_true]
    · intro m' _ e
      simp [e]

/-- **Backpropagation computes the gradient.** Let the gradient of the activation `out` (the output of one of the layers) be `dy`, that of all other activations
zero. Then `backward_async` adds to each element of the gradient of each input and parameter which requires one the partial derivative of
`⟨dy, out⟩` with respect to that element. -/
theorem C36_gradient (acts : List Moments) (h : IsNetwork asIdx invalidate given layers) {s : Store ℝ} {env : Env}
    (hp : Propagated given (netOf asIdx invalidate layers) env s) (hreg : NetRegular env (netOf asIdx invalidate layers)) {out : NetLayer}
    (hout : out ∈ netOf asIdx invalidate layers) {dy : List Nat → ℝ} (hdy : out.out.grad.Ready s ∧ out.out.grad.Holds s dy)
    (hzero : ∀ l ∈ netOf asIdx invalidate layers, l.out.value.id ≠ out.out.value.id → l.out.grad.Ready s ∧ l.out.grad.Holds s (fun _ => 0))
    {G : Env} (hG : GradsHold given s G) :
    Runs ((BaseModel.init acts layers).backwardAsync asIdx invalidate) s (bwdIds (netOf asIdx invalidate layers)) (fun s' =>
      ∃ g : Env, GradsHold given s' (fun i J => G i J + g i J) ∧ ∀ m ∈ given, m.gradRequired = true → ∀ J ∈ box m.value.shape,
        HasDerivAt (fun t => ∑ I ∈ box out.out.value.shape, dy I * netEnv (env.shift m.value.id J t) (netOf asIdx invalidate layers) out.out.value.id I)
          (g m.value.id J) 0) := by
  refine (C36_jacobian acts h hp hreg hout hdy hzero hG).imp (fun _ h => h) ?_
  rintro s' _ ⟨_, g, h1, h2⟩
  refine ⟨g, h1, fun m hm hr J hJ => ?_⟩
  obtain ⟨D, hD, e⟩ := h2 m hm hr J hJ
  rw [e]
  exact HasDerivAt.fun_sum fun I hI => (hD I hI).const_mul (dy I)

/-! ### Operands of layers -/

/-- The tensors a layer reads (those its meaning depends on) are exactly those which it reports as its input activations and its parameters, and the mask of an attention layer;
if the input activations are different, each of them is read as one operand. So `BaseModel.parameters`, the activations and the masks together contain all of them. -/
theorem C36_operands (l : PyLayer ℝ) : (∀ m, m ∈ (l.toNet asIdx invalidate).ins ↔ m ∈ l.inputs ++ l.parameters ++ l.masks) ∧
    (l.inputs.Nodup → (l.toNet asIdx invalidate).ins.Perm (l.inputs ++ l.parameters ++ l.masks)) ∧ (l.toNet asIdx invalidate).out = l.output := by
  have key : ∀ l : Attention ℝ, l.ins.Perm ([l.xq, l.xk, l.xv].dedup ++ l.params ++ (l.mask.map maskMoments).toList) := by
    intro l
    rw [List.perm_iff_count]
    intro a
    have e : [l.biasQ, l.biasK, l.biasV, l.biasOut].filterMap id = [l.biasQ, l.biasK, l.biasV].filterMap id ++ [l.biasOut].filterMap id := by
      rw [← List.filterMap_append]; rfl
    simp only [Attention.ins, Attention.params, e, List.count_append, List.count_cons, List.count_nil]
    omega
  cases l with
  | attention l =>
    refine ⟨fun m => ?_, fun hn => ?_, rfl⟩
    · rw [show ((PyLayer.attention l).toNet asIdx invalidate).ins = l.ins from rfl, (key l).mem_iff]
      simp only [PyLayer.inputs, PyLayer.parameters, PyLayer.masks, List.mem_append, List.mem_dedup]
    · refine (key l).trans ?_
      simp only [PyLayer.inputs, PyLayer.parameters, PyLayer.masks] at hn ⊢
      rw [List.dedup_eq_self.2 hn]
  | flash l =>
    refine ⟨fun m => ?_, fun hn => ?_, rfl⟩
    · rw [show ((PyLayer.flash l).toNet asIdx invalidate).ins = l.ins from rfl, (key l).mem_iff]
      simp only [PyLayer.inputs, PyLayer.parameters, PyLayer.masks, List.mem_append, List.mem_dedup]
    · refine (key l).trans ?_
      simp only [PyLayer.inputs, PyLayer.parameters, PyLayer.masks] at hn ⊢
      rw [List.dedup_eq_self.2 hn]
  | _ => exact ⟨fun _ => by simp only [PyLayer.masks, List.append_nil]; exact Iff.rfl, fun _ => by simp only [PyLayer.masks, List.append_nil]; exact .refl _, rfl⟩

/-! ### Clearing of gradients -/

private theorem clear_list (ms : List Moments) : ∀ s : Store ℝ, (ms.flatMap Moments.gradIds).Nodup → (∀ m ∈ ms, m.gradRequired = true → m.grad.Ready s) →
    Runs (seqAsync (ms.map fun m => PyEntry.clearGrad (.moments m))) s (ms.flatMap Moments.gradIds) (fun s' => ∀ m ∈ ms, m.GradHolds s' (fun _ => 0)) := by
  induction ms with
  | nil => intro s _ _; exact Runs.nil (by simp)
  | cons m ms ih =>
    intro s hn hr
    rw [List.flatMap_cons, List.nodup_append] at hn
    rw [List.map_cons]
    have h1 : Runs (PyEntry.clearGrad (α := ℝ) (.moments m)) s m.gradIds (fun s' => m.GradHolds s' (fun _ => 0)) :=
      Moments.when_runs fun h => C11_clear (hr m (by simp) h)
    refine h1.cons' (fun i hi => by simp [hi]) fun s1 c1 q1 => ?_
    have hr1 : ∀ m' ∈ ms, m'.gradRequired = true → m'.grad.Ready s1 := by
      intro m' hm' h'
      refine c1.ready (hr m' (by simp [hm']) h') fun e => ?_
      exact hn.2.2 _ e _ (List.mem_flatMap.2 ⟨m', hm', by simp [Moments.gradIds, h']⟩) rfl
    refine (ih s1 hn.2.1 hr1).imp (fun i hi => by simp [hi]) fun s' c2 h => ?_
    refine List.forall_mem_cons.2 ⟨q1.changed c2 fun i hi e => ?_, h⟩
    exact hn.2.2 _ hi _ e rfl

/-- **Clearing of gradients.** `clear_gradients` of a model makes the required gradients of all parameters and activations zero, whatever they contained (also
garbage), and changes nothing else. -/
theorem C36_clear_gradients {acts : List Moments} {s : Store ℝ}
    (hn : ((layers.flatMap PyLayer.parameters ++ acts).flatMap Moments.gradIds).Nodup)
    (hr : ∀ m ∈ layers.flatMap PyLayer.parameters ++ acts, m.gradRequired = true → m.grad.Ready s) :
    Runs (BaseModel.init acts layers).clearGradients s ((layers.flatMap PyLayer.parameters ++ acts).flatMap Moments.gradIds) (fun s' =>
      ∀ m ∈ layers.flatMap PyLayer.parameters ++ acts, m.GradHolds s' (fun _ => 0)) := by
  have e1 : (BaseModel.init acts layers).clearParametersGrads (α := ℝ) =
      seqAsync ((layers.flatMap PyLayer.parameters).map fun m => PyEntry.clearGrad (.moments m)) := by
    unfold BaseModel.clearParametersGrads BaseModel.init
    rw [List.map_flatMap, List.map_flatMap]
    simp only [List.map_map]
    rfl
  have e2 : (BaseModel.init acts layers).clearActivationsGrads (α := ℝ) = seqAsync (acts.map fun m => PyEntry.clearGrad (.moments m)) := by
    unfold BaseModel.clearActivationsGrads BaseModel.init
    rw [List.map_map]
    rfl
  unfold BaseModel.clearGradients
  rw [e1, e2]
  rw [List.flatMap_append] at hn ⊢
  rw [List.nodup_append] at hn
  refine (clear_list _ s hn.1 fun m hm => hr m (by simp only [List.mem_append]; exact .inl hm)).cons' (fun i hi => List.mem_append_left _ hi) fun s1 c1 q1 => ?_
  have hr1 : ∀ m ∈ acts, m.gradRequired = true → m.grad.Ready s1 := by
    intro m hm h
    refine c1.ready (hr m (List.mem_append_right _ hm) h) fun e => ?_
    exact hn.2.2 _ e _ (List.mem_flatMap.2 ⟨m, hm, by simp [Moments.gradIds, h]⟩) rfl
  refine (clear_list _ s1 hn.2.1 hr1).cons' (fun i hi => List.mem_append_right _ hi) fun s2 c2 q2 => ?_
  refine Runs.nil ?_
  intro m hm
  rcases List.mem_append.1 hm with hm | hm
  · refine (q1 m hm).changed c2 fun i hi e => ?_
    exact hn.2.2 _ (List.mem_flatMap.2 ⟨m, hm, hi⟩) _ e rfl
  · exact q2 m hm

/-- `clear_parameters_grads` and `clear_activations_grads` clear one of the two lists only. -/
theorem C36_clear_parameters {acts : List Moments} {s : Store ℝ} (hn : ((layers.flatMap PyLayer.parameters).flatMap Moments.gradIds).Nodup)
    (hr : ∀ m ∈ layers.flatMap PyLayer.parameters, m.gradRequired = true → m.grad.Ready s) :
    Runs (BaseModel.init acts layers).clearParametersGrads s ((layers.flatMap PyLayer.parameters).flatMap Moments.gradIds) (fun s' =>
      ∀ m ∈ layers.flatMap PyLayer.parameters, m.GradHolds s' (fun _ => 0)) := by
  have e1 : (BaseModel.init acts layers).clearParametersGrads (α := ℝ) =
      seqAsync ((layers.flatMap PyLayer.parameters).map fun m => PyEntry.clearGrad (.moments m)) := by
    unfold BaseModel.clearParametersGrads BaseModel.init
    rw [List.map_flatMap, List.map_flatMap]
    simp only [List.map_map]
    rfl
  rw [e1]
  exact clear_list _ s hn hr

theorem C36_clear_activations {acts : List Moments} {s : Store ℝ} (hn : (acts.flatMap Moments.gradIds).Nodup)
    (hr : ∀ m ∈ acts, m.gradRequired = true → m.grad.Ready s) :
    Runs (BaseModel.init acts layers).clearActivationsGrads s (acts.flatMap Moments.gradIds) (fun s' => ∀ m ∈ acts, m.GradHolds s' (fun _ => 0)) := by
  have e2 : (BaseModel.init acts layers).clearActivationsGrads (α := ℝ) = seqAsync (acts.map fun m => PyEntry.clearGrad (.moments m)) := by
    unfold BaseModel.clearActivationsGrads BaseModel.init
    rw [List.map_map]
    rfl
  rw [e2]
  exact clear_list _ s hn hr

/-! ### The hypotheses can be met -/

/-- The layer of C33 followed by ReLU. -/
def netExample : List (PyLayer ℝ) :=
  [.linear linearExample, .act ⟨linearExample.y, ⟨⟨8, [5, 3], [2, 2]⟩, ⟨9, [5, 3], [2, 2]⟩, true⟩, .relu⟩]

def netExampleGiven : List Moments := [linearExample.x, linearExample.w, ⟨⟨6, [3], [2]⟩, ⟨7, [3], [2]⟩, true⟩]

theorem netExample_isNetwork (asIdx : ℝ → Int) : IsNetwork asIdx false netExampleGiven netExample := by
  refine ⟨?_, ?_, ?_, ?_⟩
  · simp only [netExample, List.forall_mem_cons, List.not_mem_nil, IsEmpty.forall_iff, implies_true, and_true]
    exact ⟨⟨⟨_, _, _, linearExample_fits⟩, rfl⟩, by simp [PyLayer.Fits, Act.Fits, Moments.SameAs, linearExample]⟩
  · simp [netExample, netOf, PyLayer.toNet, Linear.toNet, Act.toNet, linearExample]
  · simp [netExample, netOf, PyLayer.toNet, Linear.toNet, Act.toNet, linearExample, Ordered, netExampleGiven]
  · simp [netExample, netOf, PyLayer.toNet, Linear.toNet, Act.toNet, linearExample, netIds, netExampleGiven, Moments.ids, Moments.gradIds]

/-- Forward propagation of this network, from any contents of the given tensors; afterwards the hypotheses of backward propagation hold, too. -/
example (asIdx : ℝ → Int) (env : Env) : ∃ s : Store ℝ,
    Runs ((BaseModel.init [] netExample).forwardAsync asIdx false) s [2, 8] (fun s' => Propagated netExampleGiven (netOf asIdx false netExample) env s' ∧
      GradsHold (netExampleGiven ++ (netOf asIdx false netExample).map NetLayer.out) s' (fun _ _ => 0)) := by
  have h := storeOf_spec [(linearExample.x.value, env 0), (linearExample.x.grad, fun _ => (0 : ℝ)), (linearExample.y.value, fun _ => 0), (linearExample.y.grad, fun _ => 0),
    (linearExample.w.value, env 4), (linearExample.w.grad, fun _ => 0), (⟨6, [3], [2]⟩, env 6), (⟨7, [3], [2]⟩, fun _ => 0), (⟨8, [5, 3], [2, 2]⟩, fun _ => 0),
    (⟨9, [5, 3], [2, 2]⟩, fun _ => 0)]
    (by simp [linearExample, Tensor.WF]) (by simp [linearExample])
  simp only [List.forall_mem_cons, List.not_mem_nil, IsEmpty.forall_iff, implies_true, and_true] at h
  obtain ⟨hx, hxg, hy, hyg, hw, hwg, hb, hbg, hz, hzg⟩ := h
  generalize storeOf _ = s at hx hxg hy hyg hw hwg hb hbg hz hzg
  refine ⟨s, (C36_forward (asIdx := asIdx) [] (netExample_isNetwork asIdx) (env := env) ⟨?_, ?_⟩ ?_ ?_).imp (by simp [fwdIds, netOf, netExample, PyLayer.toNet, Linear.toNet, Act.toNet, linearExample]) ?_⟩
  · simp only [netExampleGiven, netOf, netExample, PyLayer.toNet, Linear.toNet, Act.toNet, List.map_cons, List.map_nil, List.cons_append, List.nil_append,
      List.forall_mem_cons, List.not_mem_nil, IsEmpty.forall_iff, implies_true, and_true]
    exact ⟨⟨hx.1, fun _ => hxg.1⟩, ⟨hw.1, fun _ => hwg.1⟩, ⟨hb.1, fun _ => hbg.1⟩, ⟨hy.1, fun _ => hyg.1⟩, ⟨hz.1, fun _ => hzg.1⟩⟩
  · simp [netOf, netExample, PyLayer.toNet, Linear.toNet, Act.toNet, AllReady]
  · simp only [netExampleGiven, List.forall_mem_cons, List.not_mem_nil, IsEmpty.forall_iff, implies_true, and_true]
    exact ⟨hx.2, hw.2, hb.2⟩
  · simp [netOf, netExample, PyLayer.toNet, Linear.toNet, Act.toNet, NetValid]
  · intro s' hc hp
    refine ⟨hp, ?_⟩
    have key : ∀ {m : Moments}, m.grad.Ready s ∧ m.grad.Holds s (fun _ => (0 : ℝ)) → m.grad.id ∉ [2, 8] → m.GradHolds s' (fun _ => 0) :=
      fun hm hid _ => ⟨hc.ready hm.1 hid, hc.holds hm.2 hid⟩
    simp only [netExampleGiven, netOf, netExample, PyLayer.toNet, Linear.toNet, Act.toNet, List.map_cons, List.map_nil, List.cons_append, List.nil_append, GradsHold,
      List.forall_mem_cons, List.not_mem_nil, IsEmpty.forall_iff, implies_true, and_true]
    exact ⟨key hxg (by decide), key hwg (by decide), key (m := ⟨⟨6, [3], [2]⟩, ⟨7, [3], [2]⟩, true⟩) hbg (by decide), key hyg (by decide),
      key (m := ⟨⟨8, [5, 3], [2, 2]⟩, ⟨9, [5, 3], [2, 2]⟩, true⟩) hzg (by decide)⟩

end NNTile
