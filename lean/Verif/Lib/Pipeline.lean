import Verif.Spec.Pipeline
import Verif.Lib.OptimSteps
import Verif.Props.C36
import Verif.Props.C39
import Verif.Props.C40
import Verif.Props.C42
/-!
# The training loop
-/
namespace NNTile
open Finset
variable {p : Pipeline ℝ} {asIdx : ℝ → Int} {invalidate : Bool} {given acts : List Moments} {a0 : Moments} {layers : List (PyLayer ℝ)}

theorem PyLoss.toNet_correct {l : PyLoss ℝ} (h : l.Fits) (asIdx : ℝ → Int) : (l.toNet asIdx).Correct := by
  cases l with
  | frob l => exact C39_frob_correct h
  | crossEntropy l =>
    obtain ⟨⟨n, h⟩, hg⟩ := h
    exact C40_cross_entropy_correct h hg asIdx

theorem PyLoss.toNet_eqs (l : PyLoss ℝ) (asIdx : ℝ → Int) : l.calcAsync asIdx = (l.toNet asIdx).run ∧ l.y = (l.toNet asIdx).y ∧ l.val = (l.toNet asIdx).val := by
  cases l <;> exact ⟨rfl, rfl, rfl⟩

theorem emptyOpt_correct : emptyOpt.Correct := by
  refine ⟨fun _ _ _ _ _ _ _ _ => trivial, fun _ _ => trivial, fun k s θ g a _ _ _ => ?_⟩
  exact ⟨[], s, rfl, rfl, fun _ _ => rfl, by simp [AllReady, paramTensors, emptyOpt], by simp [emptyOpt], trivial⟩

theorem PyOpt.toNet_correct {o : PyOpt ℝ} (h : o.Fits) (invalidate : Bool) : (o.toNet invalidate).Correct := by
  cases o with
  | empty => exact emptyOpt_correct
  | sgd o => exact C41_sgd h
  | adam o => exact C42_adam h.1 h.2.1 h.2.2
  | fusedAdam o => exact C42_fused_adam h.1 h.2 invalidate
  | fusedAdamW o => exact C42_fused_adamw h.1 h.2 invalidate

theorem PyOpt.toNet_step (o : PyOpt ℝ) (invalidate : Bool) (k : Nat) : o.step invalidate k = (o.toNet invalidate).step k := by
  cases o <;> rfl

theorem gradIds_mem {m : Moments} (h : m.gradRequired = true) : m.grad.id ∈ m.gradIds := by simp [Moments.gradIds, h]

theorem mem_gradIds {m : Moments} {i : Nat} (h : i ∈ m.gradIds) : m.gradRequired = true ∧ i = m.grad.id := by
  unfold Moments.gradIds at h
  split at h
  · rename_i hr
    exact ⟨hr, by simpa using h⟩
  · simp at h

theorem all_mem_netIds {net : List NetLayer} {m : Moments} (hm : m ∈ given ++ net.map NetLayer.out) {i : Nat} (hi : i ∈ m.ids) : i ∈ netIds given net := by
  rw [netIds, List.mem_append]
  rcases List.mem_append.1 hm with hm | hm
  · exact .inl (List.mem_flatMap.2 ⟨m, hm, hi⟩)
  · obtain ⟨l, hl, rfl⟩ := List.mem_map.1 hm
    exact .inr (List.mem_flatMap.2 ⟨l, hl, List.mem_append_left _ hi⟩)

theorem temps_mem_netIds {net : List NetLayer} {l : NetLayer} (hl : l ∈ net) {i : Nat} (hi : i ∈ l.temps.map Tensor.id) : i ∈ netIds given net := by
  rw [netIds, List.mem_append]
  exact .inr (List.mem_flatMap.2 ⟨l, hl, List.mem_append_right _ hi⟩)

theorem fwdIds_mem_netIds {net : List NetLayer} {i : Nat} (h : i ∈ fwdIds net) : i ∈ netIds given net := by
  rw [netIds, List.mem_append]
  exact .inr (fwdIds_subset h)

theorem bwdIds_mem_netIds {net : List NetLayer} (ho : Ordered given net) {i : Nat} (h : i ∈ bwdIds net) : i ∈ netIds given net := by
  rcases ho.bwdIds_mem h with ⟨m, hm, hi⟩ | ⟨l, hl, hi⟩
  · exact all_mem_netIds (List.mem_append.2 hm) (gradIds_subset hi)
  · exact temps_mem_netIds hl hi

theorem GradHolds_iff {m : Moments} {s : Store ℝ} {g : List Nat → ℝ} (h : m.gradRequired = true) : m.GradHolds s g ↔ m.grad.Ready s ∧ m.grad.Holds s g :=
  ⟨fun k => k h, fun k _ => k⟩

/-- What is known between two minibatches. -/
structure MiniState (net : List NetLayer) (L : NetLoss) (given : List Moments) (a0 : Moments) (params : List Moments) (θ G : Env) (v : ℝ) (s : Store ℝ) : Prop where
  ready : NetReady given net s
  values : ∀ m ∈ given, m.value.id ≠ a0.value.id → m.value.Holds s (θ m.value.id)
  loss : AllReady (L.y :: L.val :: L.temps) s
  val : L.val.Holds s (fun _ => v)
  grads : ∀ m ∈ params, m.grad.Holds s (G m.value.id)

theorem shift_update {θ : Env} {a0 i : Nat} {X : List Nat → ℝ} (h : i ≠ a0) (J : List Nat) (t : ℝ) :
    Env.shift (Function.update θ a0 X) i J t = Function.update (θ.shift i J t) a0 X := by
  unfold Env.shift
  rw [Function.update_of_ne h, Function.update_comm h]

set_option maxHeartbeats 1000000 in
theorem minibatch_ok (fit : p.Fits asIdx invalidate given a0 acts layers) {d : Tensor × Tensor}
    (hdx : d.1.shape = a0.value.shape ∧ d.1.basetile = a0.value.basetile) (hdy : d.2.shape = p.loss.y.shape ∧ d.2.basetile = p.loss.y.basetile)
    (hdi : ∀ T ∈ [d.1, d.2], T.id ∉ netIds given (netOf asIdx invalidate layers) ++ ((p.loss.toNet asIdx).y :: (p.loss.toNet asIdx).val :: (p.loss.toNet asIdx).temps).map Tensor.id)
    {θ G : Env} {v : ℝ} {s : Store ℝ} {X Y : List Nat → ℝ} (hX : d.1.Ready s ∧ d.1.Holds s X) (hY : d.2.Ready s ∧ d.2.Holds s Y)
    (hs : MiniState (netOf asIdx invalidate layers) (p.loss.toNet asIdx) given a0 (layers.flatMap PyLayer.parameters) θ G v s)
    (hvalid : NetValid (Function.update θ a0.value.id X) (netOf asIdx invalidate layers)) (hreg : NetRegular (Function.update θ a0.value.id X) (netOf asIdx invalidate layers))
    (hL : (p.loss.toNet asIdx).Valid Y) :
    Runs (p.minibatch asIdx invalidate d) s (netIds given (netOf asIdx invalidate layers) ++ ((p.loss.toNet asIdx).y :: (p.loss.toNet asIdx).val :: (p.loss.toNet asIdx).temps).map Tensor.id)
      (fun s' => ∃ g : Env, MiniState (netOf asIdx invalidate layers) (p.loss.toNet asIdx) given a0 (layers.flatMap PyLayer.parameters) θ (fun i J => G i J + g i J)
          ((if (p.loss.toNet asIdx).accumulates then v else 0) + miniLoss (netOf asIdx invalidate layers) (p.loss.toNet asIdx) a0.value.id (X, Y) θ) s' ∧
        ∀ m ∈ layers.flatMap PyLayer.parameters, ∀ J ∈ box m.value.shape,
          HasDerivAt (fun t => miniLoss (netOf asIdx invalidate layers) (p.loss.toNet asIdx) a0.value.id (X, Y) (θ.shift m.value.id J t)) (g m.value.id J) 0) := by
  have hLc := PyLoss.toNet_correct fit.loss asIdx
  obtain ⟨el1, el2, el3⟩ := PyLoss.toNet_eqs p.loss asIdx
  obtain ⟨out, hout, hox⟩ := List.mem_map.1 fit.lossIn
  have hids := fit.ids
  have hact := fit.actsIn
  have houts := fit.outs
  have hN := fit.network
  have hcor := C36_layers hN
  rw [el2] at hdy
  unfold Pipeline.minibatch
  rw [fit.model, el1, el2]
  generalize hLe : p.loss.toNet asIdx = L at *
  set net := netOf asIdx invalidate layers with hnet
  -- identities
  rw [← List.append_assoc, List.nodup_append] at hids
  obtain ⟨hids, -, -⟩ := hids
  have hids' := hids
  rw [List.nodup_append] at hids'
  obtain ⟨-, hli, hnl⟩ := hids'
  have hnl' : ∀ i ∈ netIds given net, i ∉ (L.y :: L.val :: L.temps).map Tensor.id := fun i hi hj => hnl i hi i hj rfl
  obtain ⟨hall, htmp⟩ := netIds_allMoments hN.ids
  have hgn : (given.flatMap Moments.ids).Nodup := by
    rw [List.flatMap_append, List.nodup_append] at hall
    exact hall.1
  have ha0 : a0 ∈ given ++ net.map NetLayer.out := by simp [fit.inputGiven]
  -- what the steps leave alone
  have n1v : ∀ m ∈ given ++ net.map NetLayer.out, m.value.id ∉ acts.flatMap Moments.gradIds := by
    intro m hm hi
    obtain ⟨m', hm', hi⟩ := List.mem_flatMap.1 hi
    exact value_not_gradIds hall hm (hact m' hm') hi
  have n1g : ∀ m ∈ given ++ net.map NetLayer.out, m ∉ acts → ∀ i ∈ m.gradIds, i ∉ acts.flatMap Moments.gradIds := by
    intro m hm hma i hi hj
    obtain ⟨m', hm', hj⟩ := List.mem_flatMap.1 hj
    exact hma (ids_inj hall hm (hact m' hm') (gradIds_subset hi) (gradIds_subset hj) ▸ hm')
  have n1n : ∀ i, i ∉ netIds given net → i ∉ acts.flatMap Moments.gradIds := by
    intro i hi hj
    obtain ⟨m', hm', hj⟩ := List.mem_flatMap.1 hj
    exact hi (all_mem_netIds (hact m' hm') (gradIds_subset hj))
  have n1t : ∀ l ∈ net, ∀ T ∈ l.temps, T.id ∉ acts.flatMap Moments.gradIds := by
    intro l hl T hT hj
    obtain ⟨m', hm', hj⟩ := List.mem_flatMap.1 hj
    exact htmp l hl T.id (List.mem_map_of_mem hT) (List.mem_flatMap.2 ⟨m', hact m' hm', gradIds_subset hj⟩)
  have n2v : ∀ m ∈ given ++ net.map NetLayer.out, m ≠ a0 → ∀ i ∈ m.ids, i ≠ a0.value.id := by
    rintro m hm hne i hi rfl
    exact hne (ids_inj hall hm ha0 hi a0.value_mem_ids)
  have n2g : ∀ m ∈ given ++ net.map NetLayer.out, ∀ i ∈ m.gradIds, i ≠ a0.value.id := by
    rintro m hm i hi rfl
    exact value_not_gradIds hall ha0 hm hi
  have n2t : ∀ l ∈ net, ∀ T ∈ l.temps, T.id ≠ a0.value.id := by
    intro l hl T hT e
    exact htmp l hl T.id (List.mem_map_of_mem hT) (List.mem_flatMap.2 ⟨a0, ha0, e ▸ a0.value_mem_ids⟩)
  have n3v : ∀ m ∈ given, m.value.id ∉ fwdIds net := by
    intro m hm hi
    have h := hN.ids
    rw [netIds, List.nodup_append] at h
    exact h.2.2 _ (List.mem_flatMap.2 ⟨m, hm, m.value_mem_ids⟩) _ (fwdIds_subset hi) rfl
  have n3g : ∀ m ∈ given ++ net.map NetLayer.out, ∀ i ∈ m.gradIds, i ∉ fwdIds net := by
    intro m hm i hi hj
    obtain ⟨l, hl, hj⟩ := List.mem_flatMap.1 hj
    rcases List.mem_cons.1 hj with rfl | hj
    · exact value_not_gradIds hall (m := l.out) (List.mem_append_right _ (List.mem_map_of_mem hl)) hm hi
    · exact htmp l hl _ hj (List.mem_flatMap.2 ⟨m, hm, gradIds_subset hi⟩)
  have n6v : ∀ m ∈ given ++ net.map NetLayer.out, m.value.id ∉ bwdIds net := by
    intro m hm hi
    rcases hN.order.bwdIds_mem hi with ⟨m', hm', hi'⟩ | ⟨l', hl', hi'⟩
    · exact value_not_gradIds hall hm (List.mem_append.2 hm') hi'
    · exact htmp l' hl' _ hi' (List.mem_flatMap.2 ⟨m, hm, m.value_mem_ids⟩)
  have hLx : L.x ∈ given ++ net.map NetLayer.out := by rw [← hox]; exact List.mem_append_right _ (List.mem_map_of_mem hout)
  have hLreq : L.x.gradRequired = true := by rw [← hox]; exact (hcor out hout).required
  have hLg : L.x.grad.id ∈ netIds given net := all_mem_netIds hLx (gradIds_subset (gradIds_mem hLreq))
  have hln : ∀ T ∈ L.y :: L.val :: L.temps, T.id ∉ netIds given net := fun T hT hi => hnl' _ hi (List.mem_map_of_mem hT)
  have hdn : ∀ T ∈ [d.1, d.2], T.id ∉ netIds given net := fun T hT hi => hdi T hT (List.mem_append_left _ hi)
  have hdl : ∀ T ∈ [d.1, d.2], T.id ∉ (L.y :: L.val :: L.temps).map Tensor.id := fun T hT hi => hdi T hT (List.mem_append_right _ hi)
  -- 1. gradients of activations
  have hag : (acts.flatMap Moments.gradIds).Nodup := by
    have : (acts.flatMap Moments.ids).Nodup := by
      have key : ∀ L : List Moments, (L.map fun m => m.value.id).Nodup → (∀ m ∈ L, m ∈ given ++ net.map NetLayer.out) → (L.flatMap Moments.ids).Nodup := by
        intro L
        induction L with
        | nil => simp
        | cons m L ih =>
          intro hi hsub
          rw [List.map_cons, List.nodup_cons] at hi
          rw [List.flatMap_cons, List.nodup_append]
          refine ⟨(List.nodup_flatMap.1 hall).1 m (hsub m (by simp)), ih hi.2 fun m' hm' => hsub m' (by simp [hm']), ?_⟩
          rintro i hi1 j hj rfl
          obtain ⟨m', hm', hj⟩ := List.mem_flatMap.1 hj
          have := ids_inj hall (hsub m (by simp)) (hsub m' (by simp [hm'])) hi1 hj
          exact hi.1 (List.mem_map.2 ⟨m', hm', by rw [this]⟩)
      exact key acts fit.actsNodup hact
    refine List.Nodup.sublist ?_ this
    clear * -
    induction acts with
    | nil => simp
    | cons m L ih =>
      rw [List.flatMap_cons, List.flatMap_cons]
      exact (List.sublist_cons_self _ _).append ih
  refine Runs.cons' (C36_clear_activations (layers := layers) hag fun m hm hr => (hs.ready.1 m (hact m hm)).2 hr)
    (fun i hi => List.mem_append_left _ ?_) fun s1 c1 q1 => ?_
  · obtain ⟨m, hm, hi⟩ := List.mem_flatMap.1 hi
    exact all_mem_netIds (hact m hm) (gradIds_subset hi)
  have hr1 : NetReady given net s1 := by
    refine ⟨fun m hm => ⟨c1.ready (hs.ready.1 m hm).1 (n1v m hm), fun hr => ?_⟩, fun l hl => (hs.ready.2 l hl).changed c1 (n1t l hl)⟩
    by_cases hma : m ∈ acts
    · exact (q1 m hma hr).1
    · exact c1.ready ((hs.ready.1 m hm).2 hr) (n1g m hm hma _ (gradIds_mem hr))
  -- 2. the input
  have hl1 := hs.loss.changed c1 fun T hT => n1n _ (hln T hT)
  have hin : (BaseModel.init acts layers).activations = .moments a0 :: acts.tail.map .moments := by
    have := fit.input
    cases acts with
    | nil => simp at this
    | cons a L =>
      simp only [List.head?_cons, Option.some.injEq] at this
      rw [this]; rfl
  have hinp : p.input = .ok a0.value := by
    unfold Pipeline.input
    rw [fit.model, hin]
  have hcopy : Computes (p.input >>= fun a => copyAsync d.1 a) s1 a0.value X := by
    rw [hinp, M.bind_ok]
    exact C09_copy (c1.ready hX.1 (n1n _ (hdn d.1 (by simp)))) (hr1.1 a0 ha0).1
      ⟨fun e => hdn d.1 (by simp) (e ▸ all_mem_netIds ha0 a0.value_mem_ids), hdx.1, hdx.2⟩ X (c1.holds hX.2 (n1n _ (hdn d.1 (by simp))))
  refine Runs.cons' hcopy.runs (fun i hi => List.mem_append_left _ ?_) fun s2 c2 q2 => ?_
  · rw [List.mem_singleton.1 hi]
    exact all_mem_netIds ha0 a0.value_mem_ids
  have hr2 : NetReady given net s2 := by
    refine ⟨fun m hm => ⟨?_, fun hr => ?_⟩, fun l hl => (hr1.2 l hl).changed c2 fun T hT => by simpa using n2t l hl T hT⟩
    · by_cases e : m = a0
      · rw [e]; exact q2.2
      · exact c2.ready (hr1.1 m hm).1 (by simpa using n2v m hm e _ m.value_mem_ids)
    · exact c2.ready ((hr1.1 m hm).2 hr) (by simpa using n2g m hm _ (gradIds_mem hr))
  have hv2 : ∀ m ∈ given, m.value.Holds s2 (Function.update θ a0.value.id X m.value.id) := by
    intro m hm
    by_cases e : m = a0
    · rw [e, Function.update_self]; exact q2.1
    · have hne := n2v m (by simp [hm]) e _ m.value_mem_ids
      rw [Function.update_of_ne hne]
      exact c2.holds (c1.holds (hs.values m hm hne) (n1v m (by simp [hm]))) (by simpa using hne)
  -- 3. forward propagation
  refine Runs.cons' (C36_forward acts hN hr2 hv2 hvalid) (fun i hi => List.mem_append_left _ (fwdIds_mem_netIds hi)) fun s3 c3 q3 => ?_
  have hne2 : ∀ i, i ∉ netIds given net → i ∉ [a0.value.id] := by
    intro i hi hj
    rw [List.mem_singleton.1 hj] at hi
    exact hi (all_mem_netIds ha0 a0.value_mem_ids)
  have hkeep3 : ∀ i, i ∉ netIds given net → i ∉ acts.flatMap Moments.gradIds ++ ([a0.value.id] ++ fwdIds net) := by
    intro i hi hj
    rcases List.mem_append.1 hj with hj | hj
    · exact n1n i hi hj
    · rcases List.mem_append.1 hj with hj | hj
      · exact hne2 i hi hj
      · exact hi (fwdIds_mem_netIds hj)
  have c13 : OnlyChanged _ s s3 := c1.trans (c2.trans c3)
  have hl3 := hs.loss.changed c13 fun T hT => hkeep3 _ (hln T hT)
  have hval3 := c13.holds hs.val (hkeep3 _ (hln L.val (by simp)))
  have hdt : ∀ T ∈ [d.1, d.2], T.id ∉ acts.flatMap Moments.gradIds ++ ([a0.value.id] ++ fwdIds net) := fun T hT => hkeep3 _ (hdn T hT)
  -- gradients after forward propagation
  have hga : ∀ m ∈ acts, m.GradHolds s3 (fun _ => 0) := by
    intro m hm
    refine ((q1 m hm).changed c2 ?_).changed c3 ?_
    · intro i hi; simpa using n2g m (hact m hm) i hi
    · exact n3g m (hact m hm)
  have hgp : ∀ m ∈ layers.flatMap PyLayer.parameters, m.grad.Ready s3 ∧ m.grad.Holds s3 (G m.value.id) := by
    intro m hm
    obtain ⟨hmg, hma, hmr, -⟩ := fit.params m hm
    have hm' : m ∈ given ++ net.map NetLayer.out := by simp [hmg]
    have hi : m.grad.id ∉ acts.flatMap Moments.gradIds ++ ([a0.value.id] ++ fwdIds net) := by
      intro hj
      rcases List.mem_append.1 hj with hj | hj
      · exact n1g m hm' hma _ (gradIds_mem hmr) hj
      · rcases List.mem_append.1 hj with hj | hj
        · exact n2g m hm' _ (gradIds_mem hmr) (List.mem_singleton.1 hj)
        · exact n3g m hm' _ (gradIds_mem hmr) hj
    exact ⟨c13.ready ((hs.ready.1 m hm').2 hmr) hi, c13.holds (hs.grads m hm) hi⟩
  -- 4. the expected output
  have hcopy2 : Computes (copyAsync d.2 L.y) s3 L.y Y :=
    C09_copy (c13.ready hY.1 (hdt d.2 (by simp))) (hl3 L.y (by simp)) ⟨fun e => hdl d.2 (by simp) (by simp [e]), hdy.1, hdy.2⟩ Y
      (c13.holds hY.2 (hdt d.2 (by simp)))
  refine Runs.cons' hcopy2.runs (fun i hi => List.mem_append_right _ (by rw [List.mem_singleton.1 hi]; simp)) fun s4 c4 q4 => ?_
  have n4 : ∀ i ∈ netIds given net, i ∉ [L.y.id] := by
    intro i hi hj
    refine hnl' i hi ?_
    rw [List.mem_singleton.1 hj]
    simp
  rw [List.map_cons, List.nodup_cons] at hli
  have hvy : L.val.id ∉ [L.y.id] := by
    intro hj
    refine hli.1 ?_
    rw [← List.mem_singleton.1 hj]
    simp
  have hty : ∀ T ∈ L.temps, T.id ∉ [L.y.id] := by
    intro T hT hj
    refine hli.1 ?_
    rw [← List.mem_singleton.1 hj]
    exact List.mem_map_of_mem (List.mem_cons_of_mem _ hT)
  have hxv := q3.1 L.x hLx
  have hxg : L.x.grad.Ready s3 := by
    have := hga L.x (by rw [← hox]; exact houts out hout) hLreq
    exact this.1
  -- 5. the loss function
  refine Runs.cons' (hLc s4 (netEnv (Function.update θ a0.value.id X) net L.x.value.id) Y v (c4.ready hxv.1 (n4 _ (all_mem_netIds hLx L.x.value_mem_ids)))
    (c4.holds hxv.2 (n4 _ (all_mem_netIds hLx L.x.value_mem_ids))) q4.2 q4.1 hL (c4.ready hxg (n4 _ hLg)) (c4.ready (hl3 L.val (by simp)) hvy)
    (fun _ => c4.holds hval3 hvy) (fun T hT => c4.ready (hl3 T (by simp [hT])) (hty T hT))) ?_ fun s5 c5 q5 => ?_
  · intro i hi
    rcases List.mem_cons.1 hi with rfl | hi
    · exact List.mem_append_right _ (by simp)
    · rcases List.mem_cons.1 hi with rfl | hi
      · exact List.mem_append_left _ hLg
      · exact List.mem_append_right _ (by rw [List.map_cons, List.map_cons]; simp only [List.mem_cons]; exact .inr (.inr hi))
  obtain ⟨qv, qvr, ⟨gL, hgL, hgrad⟩, hxr, htr⟩ := q5
  have n5 : ∀ i ∈ netIds given net, i ≠ L.x.grad.id → i ∉ L.val.id :: L.x.grad.id :: L.temps.map Tensor.id := by
    intro i hi hne hj
    rcases List.mem_cons.1 hj with rfl | hj
    · exact hnl' _ hi (by simp)
    · rcases List.mem_cons.1 hj with rfl | hj
      · exact hne rfl
      · exact hnl' _ hi (by rw [List.map_cons, List.map_cons]; simp only [List.mem_cons]; exact .inr (.inr hj))
  have hxne : ∀ m ∈ given ++ net.map NetLayer.out, m.value.id ≠ L.x.grad.id := fun m hm e =>
    value_not_gradIds hall hm hLx (e ▸ gradIds_mem hLreq)
  have hgne : ∀ m ∈ given ++ net.map NetLayer.out, m ≠ L.x → ∀ i ∈ m.gradIds, i ≠ L.x.grad.id := by
    rintro m hm hne i hi rfl
    exact hne (ids_inj hall hm hLx (gradIds_subset hi) (gradIds_subset (gradIds_mem hLreq)))
  have hLt : ∀ l ∈ net, ∀ T ∈ l.temps, T.id ≠ L.x.grad.id := by
    intro l hl T hT e
    exact htmp l hl T.id (List.mem_map_of_mem hT) (List.mem_flatMap.2 ⟨L.x, hLx, e ▸ gradIds_subset (gradIds_mem hLreq)⟩)
  have c45 : OnlyChanged _ s3 s5 := c4.trans c5
  have n45 : ∀ i ∈ netIds given net, i ≠ L.x.grad.id → i ∉ [L.y.id] ++ (L.val.id :: L.x.grad.id :: L.temps.map Tensor.id) := by
    intro i hi hne hj
    rcases List.mem_append.1 hj with hj | hj
    · exact n4 i hi hj
    · exact n5 i hi hne hj
  have hprop : Propagated given net (Function.update θ a0.value.id X) s5 := by
    refine ⟨q3.1.changed c45 fun m hm => n45 _ (all_mem_netIds hm m.value_mem_ids) (hxne m hm), fun l hl => ?_⟩
    have ht : ∀ T ∈ l.temps, T.id ∉ [L.y.id] ++ (L.val.id :: L.x.grad.id :: L.temps.map Tensor.id) := fun T hT =>
      n45 _ (temps_mem_netIds hl (List.mem_map_of_mem hT)) (hLt l hl T hT)
    exact ⟨(hcor l hl).keep _ _ _ _ c45 ht (q3.2 l hl).1, (q3.2 l hl).2.changed c45 ht⟩
  -- 6. backward propagation
  have hGd : GradsHold given s5 (fun i => if i ∈ (layers.flatMap PyLayer.parameters).map (fun m => m.value.id) then G i else fun _ => 0) := by
    intro m hm hr
    have hm' : m ∈ given ++ net.map NetLayer.out := by simp [hm]
    have hmx : m ≠ L.x := by
      rintro rfl
      have := hall
      rw [List.flatMap_append, List.nodup_append] at this
      exact this.2.2 _ (List.mem_flatMap.2 ⟨L.x, hm, L.x.value_mem_ids⟩) _ (List.mem_flatMap.2 ⟨L.x, by rw [← hox]; exact List.mem_map_of_mem hout, L.x.value_mem_ids⟩) rfl
    have hid := n45 _ (all_mem_netIds hm' (gradIds_subset (gradIds_mem hr))) (hgne m hm' hmx _ (gradIds_mem hr))
    dsimp only
    by_cases hmp : m ∈ layers.flatMap PyLayer.parameters
    · rw [if_pos (List.mem_map.2 ⟨m, hmp, rfl⟩)]
      exact ⟨c45.ready (hgp m hmp).1 hid, c45.holds (hgp m hmp).2 hid⟩
    · have hma : m ∈ acts := (fit.required m hm hr).resolve_left hmp
      rw [if_neg]
      · exact ⟨c45.ready (hga m hma hr).1 hid, c45.holds (hga m hma hr).2 hid⟩
      · intro hj
        obtain ⟨m', hm2, e⟩ := List.mem_map.1 hj
        have := ids_inj hgn hm (fit.params m' hm2).1 m.value_mem_ids (e ▸ m'.value_mem_ids)
        exact hmp (this ▸ hm2)
  refine Runs.cons' (C36_jacobian acts hN hprop hreg hout (dy := gL) (by rw [hox]; exact ⟨hxr, hgL⟩) ?_ hGd) (fun i hi => List.mem_append_left _ (bwdIds_mem_netIds hN.order hi))
    fun s6 c6 q6 => ?_
  · intro l hl hne
    have hl' : l.out ∈ given ++ net.map NetLayer.out := List.mem_append_right _ (List.mem_map_of_mem hl)
    have hr := (hcor l hl).required
    have hlx : l.out ≠ L.x := by
      intro e
      rw [e, ← hox] at hne
      exact hne rfl
    have hid := n45 _ (all_mem_netIds hl' (gradIds_subset (gradIds_mem hr))) (hgne _ hl' hlx _ (gradIds_mem hr))
    have := hga _ (houts l hl) hr
    exact ⟨c45.ready this.1 hid, c45.holds this.2 hid⟩
  obtain ⟨hr6, g, hg6, hgd⟩ := q6
  have hl6 : ∀ T ∈ L.y :: L.val :: L.temps, T.id ∉ bwdIds net := fun T hT hi => hln T hT (bwdIds_mem_netIds hN.order hi)
  have hyc : L.y.id ∉ L.val.id :: L.x.grad.id :: L.temps.map Tensor.id := by
    intro hj
    rcases List.mem_cons.1 hj with e | hj
    · exact hli.1 (by simp [e])
    · rcases List.mem_cons.1 hj with e | hj
      · exact hln L.y (by simp) (e ▸ hLg)
      · exact hli.1 (by rw [List.map_cons]; exact List.mem_cons_of_mem _ hj)
  refine Runs.nil ⟨g, ⟨hr6, ?_, ?_, c6.holds qv (hl6 L.val (by simp)), ?_⟩, ?_⟩
  · intro m hm hne
    have hm' : m ∈ given ++ net.map NetLayer.out := by simp [hm]
    refine c6.holds ?_ (n6v m hm')
    have := (hprop.1 m hm').2
    rwa [netEnv_given hN.ids _ hm, Function.update_of_ne hne] at this
  · intro T hT
    refine c6.ready ?_ (hl6 T hT)
    rcases List.mem_cons.1 hT with rfl | hT
    · exact c5.ready q4.2 hyc
    · rcases List.mem_cons.1 hT with rfl | hT
      · exact qvr
      · exact htr T hT
  · intro m hm
    have := (hg6 m (fit.params m hm).1 (fit.params m hm).2.2.1).2
    dsimp only at this
    rwa [if_pos (List.mem_map.2 ⟨m, hm, rfl⟩)] at this
  · intro m hm J hJ
    obtain ⟨D, hD, e⟩ := hgd m (fit.params m hm).1 (fit.params m hm).2.2.1 J hJ
    have hmne : m.value.id ≠ a0.value.id := by
      intro e
      have := ids_inj hgn (fit.params m hm).1 fit.inputGiven m.value_mem_ids (e ▸ a0.value_mem_ids)
      refine (fit.params m hm).2.1 (this ▸ ?_)
      exact List.mem_of_mem_head? fit.input
    rw [hox] at hD e
    have hd := hgrad (fun t => netEnv (Env.shift (Function.update θ a0.value.id X) m.value.id J t) net L.x.value.id) D (by simp [Env.shift]) hD
    rw [e]
    unfold miniLoss
    simpa only [shift_update hmne] using hd

end NNTile
