import Verif.Lib.Pipeline
import Verif.Props.C46
/-!
# C44: training
-/
namespace NNTile
open Finset
variable {p : Pipeline ℝ} {asIdx : ℝ → Int} {invalidate : Bool} {given acts : List Moments} {a0 : Moments} {layers : List (PyLayer ℝ)}

/-- All minibatches of a batch. -/
private theorem minis_ok (fit : p.Fits asIdx invalidate given a0 acts layers) {D θ : Env} (ds : List (Tensor × Tensor)) :
    (∀ d ∈ ds, (d.1.shape = a0.value.shape ∧ d.1.basetile = a0.value.basetile) ∧ (d.2.shape = p.loss.y.shape ∧ d.2.basetile = p.loss.y.basetile) ∧
      ∀ T ∈ [d.1, d.2], T.id ∉ netIds given (netOf asIdx invalidate layers) ++ ((p.loss.toNet asIdx).y :: (p.loss.toNet asIdx).val :: (p.loss.toNet asIdx).temps).map Tensor.id) →
    BatchValid (netOf asIdx invalidate layers) (p.loss.toNet asIdx) a0.value.id (ds.map fun d => (D d.1.id, D d.2.id)) θ →
    ∀ (G : Env) (v : ℝ) (s : Store ℝ), (∀ d ∈ ds, ∀ T ∈ [d.1, d.2], T.Ready s ∧ T.Holds s (D T.id)) →
    MiniState (netOf asIdx invalidate layers) (p.loss.toNet asIdx) given a0 (layers.flatMap PyLayer.parameters) θ G v s →
    Runs (seqAsync (ds.map (p.minibatch asIdx invalidate))) s
      (netIds given (netOf asIdx invalidate layers) ++ ((p.loss.toNet asIdx).y :: (p.loss.toNet asIdx).val :: (p.loss.toNet asIdx).temps).map Tensor.id)
      (fun s' => ∃ g : Env, MiniState (netOf asIdx invalidate layers) (p.loss.toNet asIdx) given a0 (layers.flatMap PyLayer.parameters) θ (fun i J => G i J + g i J)
          ((ds.map fun d => (D d.1.id, D d.2.id)).foldl (fun v d => (if (p.loss.toNet asIdx).accumulates then v else 0) +
            miniLoss (netOf asIdx invalidate layers) (p.loss.toNet asIdx) a0.value.id d θ) v) s' ∧
        ∀ m ∈ layers.flatMap PyLayer.parameters, ∀ J ∈ box m.value.shape,
          HasDerivAt (fun t => batchLoss (netOf asIdx invalidate layers) (p.loss.toNet asIdx) a0.value.id (ds.map fun d => (D d.1.id, D d.2.id)) (θ.shift m.value.id J t))
            (g m.value.id J) 0) := by
  induction ds with
  | nil =>
    intro _ _ G v s _ hs
    refine Runs.nil ⟨fun _ _ => 0, ?_, ?_⟩
    · simpa using hs
    · intro m _ J _
      simpa [batchLoss] using hasDerivAt_const (0 : ℝ) (0 : ℝ)
  | cons d ds ih =>
    intro hd hv G v s hdat hs
    obtain ⟨h1, h2, h3⟩ := hd d (by simp)
    obtain ⟨v1, v2, v3⟩ := hv (D d.1.id, D d.2.id) (by simp)
    refine Runs.cons (minibatch_ok fit h1 h2 h3 (hdat d (by simp) d.1 (by simp)) (hdat d (by simp) d.2 (by simp)) hs v1 v2 v3) ?_
    rintro s1 c1 ⟨g1, hs1, hg1⟩
    refine (ih (fun d' hd' => hd d' (by simp [hd'])) (fun e he => hv e (by simp only [List.map_cons, List.mem_cons]; exact .inr he)) _ _ s1 ?_ hs1).imp (fun _ h => h) ?_
    · intro d' hd' T hT
      have hi := (hd d' (by simp [hd'])).2.2 T hT
      have := hdat d' (by simp [hd']) T hT
      exact ⟨c1.ready this.1 hi, c1.holds this.2 hi⟩
    · rintro s2 _ ⟨g2, hs2, hg2⟩
      refine ⟨fun i J => g1 i J + g2 i J, ?_, ?_⟩
      · simp only [add_assoc] at hs2
        exact hs2
      · intro m hm J hJ
        have := (hg1 m hm J hJ).fun_add (hg2 m hm J hJ)
        simpa only [batchLoss, List.map_cons, List.sum_cons] using this

private theorem foldl_value (net : List NetLayer) (L : NetLoss) (a0 : Nat) (θ : Env) (b : List Sample) :
    b.foldl (fun v d => (if L.accumulates then v else 0) + miniLoss net L a0 d θ) 0 = lossValue net L a0 b θ := by
  unfold lossValue batchLoss
  by_cases h : L.accumulates = true
  · simp only [h, if_true]
    have : ∀ (b : List Sample) (v : ℝ), b.foldl (fun v d => v + miniLoss net L a0 d θ) v = v + (b.map fun d => miniLoss net L a0 d θ).sum := by
      intro b
      induction b with
      | nil => simp
      | cons d b ih => intro v; rw [List.foldl_cons, ih, List.map_cons, List.sum_cons, add_assoc]
    rw [this, zero_add]
  · simp only [h, Bool.false_eq_true, if_false, zero_add]
    have : ∀ (b : List Sample) (v : ℝ), b.foldl (fun _ d => miniLoss net L a0 d θ) v = (b.map fun d => miniLoss net L a0 d θ).getLastD v := by
      intro b
      induction b with
      | nil => intro v; rfl
      | cons d b ih => intro v; rw [List.foldl_cons, ih, List.map_cons, List.getLastD_cons]
    exact this b 0

set_option maxHeartbeats 1000000 in
/-- **One batch.** Whatever the contents of activations, gradients and tensors of the loss function before, all tasks of one batch (all minibatches and the step of the
optimizer) can be executed; afterwards the parameters and the states of the optimizer are those of the update rule with the gradient of the loss of the whole
batch (which exists), and the loss function holds its value. -/
theorem C44_batch (fit : p.Fits asIdx invalidate given a0 acts layers) {D : Env} {k : Nat} {pt : TrainPoint (p.opt.toNet invalidate).rule} {s : Store ℝ}
    (hs : p.State asIdx invalidate given a0 layers D k pt s) {b : List Tensor × List Tensor} (hb : b ∈ p.x.zip p.y)
    (hv : BatchValid (netOf asIdx invalidate layers) (p.loss.toNet asIdx) a0.value.id (samples D b) pt.θ) :
    RunsT (p.batch asIdx invalidate k b) s
      (netIds given (netOf asIdx invalidate layers) ++ (((p.loss.toNet asIdx).y :: (p.loss.toNet asIdx).val :: (p.loss.toNet asIdx).temps).map Tensor.id ++
        (p.opt.toNet invalidate).tensors.map Tensor.id)) (fun s' =>
      p.State asIdx invalidate given a0 layers D (k + 1) (trainNext (netOf asIdx invalidate layers) (p.loss.toNet asIdx) a0.value.id (p.opt.toNet invalidate).rule
        ((p.opt.toNet invalidate).params.map fun m => m.value.id) k (samples D b) pt) s' ∧
      p.loss.val.Holds s' (fun _ => lossValue (netOf asIdx invalidate layers) (p.loss.toNet asIdx) a0.value.id (samples D b) pt.θ) ∧
      ∀ m ∈ layers.flatMap PyLayer.parameters, ∀ J ∈ box m.value.shape,
        HasDerivAt (fun t => batchLoss (netOf asIdx invalidate layers) (p.loss.toNet asIdx) a0.value.id (samples D b) (pt.θ.shift m.value.id J t))
          (batchGrad (netOf asIdx invalidate layers) (p.loss.toNet asIdx) a0.value.id (samples D b) pt.θ m.value.id J) 0) := by
  obtain ⟨el1, el2, el3⟩ := PyLoss.toNet_eqs p.loss asIdx
  have hOc := PyOpt.toNet_correct fit.opt invalidate
  have hN := fit.network
  have hminis := minis_ok fit (D := D) (θ := pt.θ) (b.1.zip b.2)
    (fun d hd => ⟨(fit.data b hb d hd).1, (fit.data b hb d hd).2.1, fun T hT hi => (fit.data b hb d hd).2.2 T hT (by
      rw [← List.append_assoc]; exact List.mem_append_left _ hi)⟩) hv
  have hdat := fit.data b hb
  have hids := fit.ids
  have hdall := fit.data
  have hopp := fit.optParams
  have hsd := hs.data
  have hsr := hs.ready
  have hsv := hs.values
  have hsl := hs.loss
  have hso := hs.opt
  unfold Pipeline.batch
  rw [fit.model, el3, PyOpt.toNet_step]
  set net := netOf asIdx invalidate layers with hnet
  obtain ⟨hall, htmp⟩ := netIds_allMoments hN.ids
  have hgn : (given.flatMap Moments.ids).Nodup := by
    rw [List.flatMap_append, List.nodup_append] at hall
    exact hall.1
  set params := layers.flatMap PyLayer.parameters with hparams
  have hpg : ∀ m ∈ params, m ∈ given ++ net.map NetLayer.out := fun m hm => by simp [(fit.params m hm).1]
  rw [List.nodup_append, List.nodup_append] at hids
  obtain ⟨-, ⟨hli, hoi, hlo⟩, hno⟩ := hids
  have nl : ∀ i ∈ netIds given net, i ∉ ((p.loss.toNet asIdx).y :: (p.loss.toNet asIdx).val :: (p.loss.toNet asIdx).temps).map Tensor.id :=
    fun i hi hj => hno i hi i (List.mem_append_left _ hj) rfl
  have no : ∀ i ∈ netIds given net, i ∉ (p.opt.toNet invalidate).tensors.map Tensor.id :=
    fun i hi hj => hno i hi i (List.mem_append_right _ hj) rfl
  have lo : ∀ i ∈ ((p.loss.toNet asIdx).y :: (p.loss.toNet asIdx).val :: (p.loss.toNet asIdx).temps).map Tensor.id, i ∉ (p.opt.toNet invalidate).tensors.map Tensor.id :=
    fun i hi hj => hlo i hi i hj rfl
  -- gradients of parameters
  have hpn : (params.flatMap Moments.gradIds).Nodup := by
    have : (params.flatMap Moments.ids).Nodup := by
      have key : ∀ L : List Moments, (L.map fun m => m.value.id).Nodup → (∀ m ∈ L, m ∈ given ++ net.map NetLayer.out) → (L.flatMap Moments.ids).Nodup := by
        intro L
        induction L with
        | nil => simp
        | cons m L ih =>
          intro hi hsub
          rw [List.map_cons, List.nodup_cons] at hi
          rw [List.flatMap_cons, List.nodup_append]
          refine ⟨(List.nodup_flatMap.1 hall).1 m (hsub m (by simp)), ih hi.2 fun m' hm' => hsub m' (by simp [hm']), ?_⟩
          rintro i hi1 j hj rfl
          obtain ⟨m', hm', hj⟩ := List.mem_flatMap.1 hj
          have := ids_inj hall (hsub m (by simp)) (hsub m' (by simp [hm'])) hi1 hj
          exact hi.1 (List.mem_map.2 ⟨m', hm', by rw [this]⟩)
      exact key params fit.paramsNodup hpg
    refine List.Nodup.sublist ?_ this
    clear * -
    induction params with
    | nil => simp
    | cons m L ih =>
      rw [List.flatMap_cons, List.flatMap_cons]
      exact (List.sublist_cons_self _ _).append ih
  have hpi : ∀ i ∈ params.flatMap Moments.gradIds, i ∈ netIds given net := by
    intro i hi
    obtain ⟨m, hm, hi⟩ := List.mem_flatMap.1 hi
    exact all_mem_netIds (hpg m hm) (gradIds_subset hi)
  refine RunsT.cons' (Runs.lift (C36_clear_parameters (acts := acts) hpn fun m hm hr => (hsr.1 m (hpg m hm)).2 hr)) (fun i hi => List.mem_append_left _ (hpi i hi))
    fun s1 c1 q1 => ?_
  have hr1 : NetReady given net s1 := by
    refine ⟨fun m hm => ⟨c1.ready (hsr.1 m hm).1 ?_, fun hr => ?_⟩, fun l hl => (hsr.2 l hl).changed c1 ?_⟩
    · intro hi
      obtain ⟨m', hm', hi⟩ := List.mem_flatMap.1 hi
      exact value_not_gradIds hall hm (hpg m' hm') hi
    · by_cases hma : m ∈ params
      · exact (q1 m hma hr).1
      · refine c1.ready ((hsr.1 m hm).2 hr) ?_
        intro hj
        obtain ⟨m', hm', hj⟩ := List.mem_flatMap.1 hj
        exact hma (ids_inj hall hm (hpg m' hm') (gradIds_subset (gradIds_mem hr)) (gradIds_subset hj) ▸ hm')
    · intro T hT hi
      obtain ⟨m', hm', hj⟩ := List.mem_flatMap.1 hi
      exact htmp l hl T.id (List.mem_map_of_mem hT) (List.mem_flatMap.2 ⟨m', hpg m' hm', gradIds_subset hj⟩)
  -- the value of the loss
  have hl1 : AllReady ((p.loss.toNet asIdx).y :: (p.loss.toNet asIdx).val :: (p.loss.toNet asIdx).temps) s1 :=
    hsl.changed c1 fun T hT hi => nl _ (hpi _ hi) (List.mem_map_of_mem hT)
  have hvm : (p.loss.toNet asIdx).val.id ∈ ((p.loss.toNet asIdx).y :: (p.loss.toNet asIdx).val :: (p.loss.toNet asIdx).temps).map Tensor.id := by simp
  refine RunsT.cons' (Runs.lift (C11_clear (hl1 _ (by simp))).runs) (fun i hi => by
    rw [List.mem_singleton.1 hi]
    exact List.mem_append_right _ (List.mem_append_left _ hvm)) fun s2 c2 q2 => ?_
  have n2 : ∀ i ∈ netIds given net, i ∉ [(p.loss.toNet asIdx).val.id] := by
    intro i hi hj
    rw [List.mem_singleton.1 hj] at hi
    exact nl _ hi hvm
  have c12 : OnlyChanged _ s s2 := c1.trans c2
  have hd2 : ∀ b' ∈ p.x.zip p.y, ∀ d ∈ b'.1.zip b'.2, ∀ T ∈ [d.1, d.2], T.Ready s2 ∧ T.Holds s2 (D T.id) := by
    intro b' hb' d hd T hT
    have hi := (hdall b' hb' d hd).2.2 T hT
    have hi' : T.id ∉ params.flatMap Moments.gradIds ++ [(p.loss.toNet asIdx).val.id] := by
      intro hj
      rcases List.mem_append.1 hj with hj | hj
      · exact hi (List.mem_append_left _ (hpi _ hj))
      · rw [List.mem_singleton.1 hj] at hi
        exact hi (List.mem_append_right _ (List.mem_append_left _ hvm))
    have := hsd b' hb' d hd T hT
    exact ⟨c12.ready this.1 hi', c12.holds this.2 hi'⟩
  have hmini : MiniState net (p.loss.toNet asIdx) given a0 params pt.θ (fun _ _ => 0) 0 s2 := by
    refine ⟨⟨fun m hm => ⟨c2.ready (hr1.1 m hm).1 (n2 _ (all_mem_netIds hm m.value_mem_ids)), fun hr =>
      c2.ready ((hr1.1 m hm).2 hr) (n2 _ (all_mem_netIds hm (gradIds_subset (gradIds_mem hr))))⟩,
      fun l hl => (hr1.2 l hl).changed c2 fun T hT => n2 _ (temps_mem_netIds hl (List.mem_map_of_mem hT))⟩, ?_, ?_, q2.1, ?_⟩
    · intro m hm hne
      have hm' : m ∈ given ++ net.map NetLayer.out := by simp [hm]
      refine c2.holds (c1.holds (hsv m hm hne) ?_) (n2 _ (all_mem_netIds hm' m.value_mem_ids))
      intro hi
      obtain ⟨m', hm'', hi⟩ := List.mem_flatMap.1 hi
      exact value_not_gradIds hall hm' (hpg m' hm'') hi
    · intro T hT
      by_cases e : T.id = (p.loss.toNet asIdx).val.id
      · have : T = (p.loss.toNet asIdx).val := List.inj_on_of_nodup_map hli hT (by simp) e
        rw [this]; exact q2.2
      · exact c2.ready (hl1 T hT) (by simpa using e)
    · intro m hm
      have hr := (fit.params m hm).2.2.1
      exact c2.holds (q1 m hm hr).2 (n2 _ (all_mem_netIds (hpg m hm) (gradIds_subset (gradIds_mem hr))))
  -- minibatches
  refine RunsT.cons' (Runs.lift (hminis (fun _ _ => 0) 0 s2 (fun d hd => hd2 b hb d hd) hmini)) (fun i hi => by
    rw [← List.append_assoc]; exact List.mem_append_left _ hi) fun s3 c3 q3 => ?_
  obtain ⟨g, hs3, hg3⟩ := q3
  have hgb : ∀ m ∈ params, ∀ J ∈ box m.value.shape, g m.value.id J = batchGrad net (p.loss.toNet asIdx) a0.value.id (samples D b) pt.θ m.value.id J :=
    fun m hm J hJ => (hg3 m hm J hJ).deriv.symm
  have hd3 : ∀ b' ∈ p.x.zip p.y, ∀ d ∈ b'.1.zip b'.2, ∀ T ∈ [d.1, d.2], T.Ready s3 ∧ T.Holds s3 (D T.id) := by
    intro b' hb' d hd T hT
    have hi := (hdall b' hb' d hd).2.2 T hT
    have hi' : T.id ∉ netIds given net ++ ((p.loss.toNet asIdx).y :: (p.loss.toNet asIdx).val :: (p.loss.toNet asIdx).temps).map Tensor.id := fun hj =>
      hi (by rw [← List.append_assoc]; exact List.mem_append_left _ hj)
    have := hd2 b' hb' d hd T hT
    exact ⟨c3.ready this.1 hi', c3.holds this.2 hi'⟩
  have hsaved : (p.opt.toNet invalidate).Saved k pt.aux s3 := by
    refine hOc.keep k pt.aux s s3 _ (c12.trans c3) ?_ hso
    intro T hT hj
    have hTi : T.id ∈ (p.opt.toNet invalidate).tensors.map Tensor.id := List.mem_map_of_mem hT
    rcases List.mem_append.1 hj with hj | hj
    · rcases List.mem_append.1 hj with hj | hj
      · exact no _ (hpi _ hj) hTi
      · exact lo _ (by rw [List.mem_singleton.1 hj]; exact hvm) hTi
    · rcases List.mem_append.1 hj with hj | hj
      · exact no _ hj hTi
      · exact lo _ hj hTi
  -- the optimizer
  have hpar : ∀ T ∈ paramTensors (p.opt.toNet invalidate).params, T.id ∈ netIds given net ∧ T.Ready s3 := by
    intro T hT
    obtain ⟨m, hm, hT⟩ := List.mem_flatMap.1 hT
    have hm' := hopp m hm
    have hr := (fit.params m hm').2.2.1
    rcases List.mem_cons.1 hT with rfl | hT
    · exact ⟨all_mem_netIds (hpg m hm') m.value_mem_ids, (hs3.ready.1 m (hpg m hm')).1⟩
    · rw [List.mem_singleton.1 hT]
      exact ⟨all_mem_netIds (hpg m hm') (gradIds_subset (gradIds_mem hr)), (hs3.ready.1 m (hpg m hm')).2 hr⟩
  have hane : ∀ m ∈ params, m.value.id ≠ a0.value.id := by
    intro m hm e
    have := ids_inj hgn (fit.params m hm).1 fit.inputGiven m.value_mem_ids (e ▸ a0.value_mem_ids)
    exact (fit.params m hm).2.1 (this ▸ List.mem_of_mem_head? fit.input)
  refine RunsT.cons' (hOc.step k s3 pt.θ (batchGrad net (p.loss.toNet asIdx) a0.value.id (samples D b) pt.θ) pt.aux (fun T hT => (hpar T hT).2) ?_ hsaved) ?_ fun s4 c4 q4 => ?_
  · intro m hm
    have hm' := hopp m hm
    obtain ⟨f1, f2, f3, f4⟩ := fit.params m hm'
    refine ⟨hs3.values m f1 (hane m hm'), ?_⟩
    intro I hI
    rw [hs3.grads m hm' I hI]
    dsimp only
    rw [zero_add, hgb m hm' I (mem_box.2 (f4 ▸ hI))]
  · intro i hi
    rw [List.map_append] at hi
    rcases List.mem_append.1 hi with hi | hi
    · obtain ⟨T, hT, rfl⟩ := List.mem_map.1 hi
      exact List.mem_append_left _ (hpar T hT).1
    · exact List.mem_append_right _ (List.mem_append_right _ hi)
  obtain ⟨o1, o2, o3⟩ := q4
  -- what the optimizer leaves alone
  have n4 : ∀ i ∈ netIds given net, (∀ m ∈ (p.opt.toNet invalidate).params, i ≠ m.value.id ∧ i ≠ m.grad.id) →
      i ∉ (paramTensors (p.opt.toNet invalidate).params ++ (p.opt.toNet invalidate).tensors).map Tensor.id := by
    intro i hi hne hj
    rw [List.map_append] at hj
    rcases List.mem_append.1 hj with hj | hj
    · obtain ⟨T, hT, rfl⟩ := List.mem_map.1 hj
      obtain ⟨m, hm, hT⟩ := List.mem_flatMap.1 hT
      rcases List.mem_cons.1 hT with rfl | hT
      · exact (hne m hm).1 rfl
      · rw [List.mem_singleton.1 hT] at hne
        exact (hne m hm).2 rfl
    · exact no i hi hj
  have n4' : ∀ i, i ∉ netIds given net → i ∉ (p.opt.toNet invalidate).tensors.map Tensor.id →
      i ∉ (paramTensors (p.opt.toNet invalidate).params ++ (p.opt.toNet invalidate).tensors).map Tensor.id := by
    intro i h1 h2 hj
    rw [List.map_append] at hj
    rcases List.mem_append.1 hj with hj | hj
    · obtain ⟨T, hT, rfl⟩ := List.mem_map.1 hj
      exact h1 (hpar T hT).1
    · exact h2 hj
  have hpr : ∀ m ∈ (p.opt.toNet invalidate).params, m.value.id ∈ m.ids ∧ m.grad.id ∈ m.ids ∧ m ∈ given ++ net.map NetLayer.out := fun m hm =>
    ⟨m.value_mem_ids, gradIds_subset (gradIds_mem (fit.params m (hopp m hm)).2.2.1), hpg m (hopp m hm)⟩
  have hother : ∀ m ∈ given ++ net.map NetLayer.out, m ∉ (p.opt.toNet invalidate).params → ∀ i ∈ m.ids,
      i ∉ (paramTensors (p.opt.toNet invalidate).params ++ (p.opt.toNet invalidate).tensors).map Tensor.id := by
    intro m hm hmp i hi
    refine n4 i (all_mem_netIds hm hi) fun m' hm' => ⟨?_, ?_⟩
    · rintro rfl
      exact hmp (ids_inj hall hm (hpr m' hm').2.2 hi (hpr m' hm').1 ▸ hm')
    · rintro rfl
      exact hmp (ids_inj hall hm (hpr m' hm').2.2 hi (hpr m' hm').2.1 ▸ hm')
  have hlk : ∀ T ∈ (p.loss.toNet asIdx).y :: (p.loss.toNet asIdx).val :: (p.loss.toNet asIdx).temps,
      T.id ∉ (paramTensors (p.opt.toNet invalidate).params ++ (p.opt.toNet invalidate).tensors).map Tensor.id := fun T hT =>
    n4' _ (fun hi => nl _ hi (List.mem_map_of_mem hT)) (lo _ (List.mem_map_of_mem hT))
  refine RunsT.nil ⟨⟨⟨fun m hm => ?_, fun l hl => (hs3.ready.2 l hl).changed c4 fun T hT => ?_⟩, ?_, ?_, o3, ?_⟩, ?_, fun m hm J hJ => ?_⟩
  · by_cases hmp : m ∈ (p.opt.toNet invalidate).params
    · exact ⟨o1 m.value (List.mem_flatMap.2 ⟨m, hmp, by simp⟩), fun _ => o1 m.grad (List.mem_flatMap.2 ⟨m, hmp, by simp⟩)⟩
    · exact ⟨c4.ready (hs3.ready.1 m hm).1 (hother m hm hmp _ m.value_mem_ids), fun hr =>
        c4.ready ((hs3.ready.1 m hm).2 hr) (hother m hm hmp _ (gradIds_subset (gradIds_mem hr)))⟩
  · refine n4 _ (temps_mem_netIds hl (List.mem_map_of_mem hT)) fun m hm => ⟨?_, ?_⟩
    · intro e
      exact htmp l hl T.id (List.mem_map_of_mem hT) (List.mem_flatMap.2 ⟨m, (hpr m hm).2.2, e ▸ (hpr m hm).1⟩)
    · intro e
      exact htmp l hl T.id (List.mem_map_of_mem hT) (List.mem_flatMap.2 ⟨m, (hpr m hm).2.2, e ▸ (hpr m hm).2.1⟩)
  · intro m hm hne
    by_cases hmp : m ∈ (p.opt.toNet invalidate).params
    · have := o2 m hmp
      simp only [trainNext, if_pos (List.mem_map.2 ⟨m, hmp, rfl⟩ : m.value.id ∈ (p.opt.toNet invalidate).params.map fun m => m.value.id)]
      exact this
    · have hmm : m.value.id ∉ (p.opt.toNet invalidate).params.map fun m => m.value.id := by
        intro hj
        obtain ⟨m', hm', e⟩ := List.mem_map.1 hj
        exact hmp (ids_inj hgn hm (fit.params m' (hopp m' hm')).1 m.value_mem_ids (e ▸ m'.value_mem_ids) ▸ hm')
      simp only [trainNext, if_neg hmm]
      exact c4.holds (hs3.values m hm hne) (hother m (by simp [hm]) hmp _ m.value_mem_ids)
  · exact hs3.loss.changed c4 hlk
  · intro b' hb' d hd T hT
    have hi := (hdall b' hb' d hd).2.2 T hT
    have hi' := n4' T.id (fun h => hi (List.mem_append_left _ h)) (fun h => hi (List.mem_append_right _ (List.mem_append_right _ h)))
    have := hd3 b' hb' d hd T hT
    exact ⟨c4.ready this.1 hi', c4.holds this.2 hi'⟩
  · have := c4.holds hs3.val (hlk _ (by simp))
    rw [foldl_value] at this
    exact this
  · have := hg3 m hm J hJ
    rw [hgb m hm J hJ] at this
    exact this

/-- One batch and the value of the loss function (cross entropy). -/
private theorem trainBatch_ok (fit : p.Fits asIdx invalidate given a0 acts layers) {l : CrossEntropy ℝ} (hl : p.loss = .crossEntropy l) {tmpId : Nat} (htmp : tmpId ≠ p.loss.val.id)
    {D : Env} {k : Nat} {pt : TrainPoint (p.opt.toNet invalidate).rule} {s : Store ℝ} (hist : List ℝ)
    (hs : p.State asIdx invalidate given a0 layers D k pt s) {b : List Tensor × List Tensor} (hb : b ∈ p.x.zip p.y)
    (hv : BatchValid (netOf asIdx invalidate layers) (p.loss.toNet asIdx) a0.value.id (samples D b) pt.θ) :
    ∃ s', p.trainBatch asIdx invalidate tmpId ⟨s, k, hist⟩ b =
        .ok ⟨s', k + 1, hist ++ [batchLoss (netOf asIdx invalidate layers) (p.loss.toNet asIdx) a0.value.id (samples D b) pt.θ]⟩ ∧
      p.State asIdx invalidate given a0 layers D (k + 1) (trainNext (netOf asIdx invalidate layers) (p.loss.toNet asIdx) a0.value.id (p.opt.toNet invalidate).rule
        ((p.opt.toNet invalidate).params.map fun m => m.value.id) k (samples D b) pt) s' := by
  obtain ⟨tasks, s', e1, e2, -, h1, h2, -⟩ := C44_batch fit hs hb hv
  refine ⟨s', ?_, h1⟩
  unfold Pipeline.trainBatch
  dsimp only
  rw [e1, M.bind_ok, e2, M.bind_ok]
  have hval : p.loss.val.shape = [] := by
    have := fit.loss
    rw [hl] at this ⊢
    obtain ⟨⟨n, h⟩, -⟩ := this
    exact h.val
  have hready : p.loss.val.Ready s' := by
    have h := h1.loss p.loss.val
    obtain ⟨q1, q2, q3⟩ := PyLoss.toNet_eqs p.loss asIdx
    exact h (by simp [q1, q2, q3])
  have hacc : (p.loss.toNet asIdx).accumulates = true := by rw [hl]; rfl
  obtain ⟨a', s2, e3, f1, f2, -, f3⟩ := C46_to_array (a := ⟨[1], Buf.ofList [0]⟩) hready h2 htmp ⟨by rw [if_pos hval], rfl⟩
  rw [f3 hval] at e3
  have eg : p.loss.getVal tmpId ⟨[1], Buf.ofList [0]⟩ s' = .ok (a', s') := by
    rw [hl] at e3 ⊢
    exact e3
  rw [eg, M.bind_ok]
  have hsh : a'.shape = [1] := by rw [f1.1, if_pos hval]
  have hsz : a'.data.size = 1 := by rw [f1.2, hsh]; rfl
  have h0 := f2 [0] (by rw [hsh]; simp)
  rw [hsh] at h0
  have h0' : a'.data.data 0 = some (lossValue (netOf asIdx invalidate layers) (p.loss.toNet asIdx) a0.value.id (samples D b) pt.θ) := by
    simpa [lin] using h0
  have er : a'.data.rd 0 = .ok (lossValue (netOf asIdx invalidate layers) (p.loss.toNet asIdx) a0.value.id (samples D b) pt.θ) := by
    simp [Buf.rd, hsz, h0']
  dsimp only
  rw [er, M.bind_ok, lossValue, if_pos hacc]

/-- A list of batches. -/
private theorem train_list (fit : p.Fits asIdx invalidate given a0 acts layers) {l : CrossEntropy ℝ} (hl : p.loss = .crossEntropy l) {tmpId : Nat} (htmp : tmpId ≠ p.loss.val.id)
    {D : Env} (bs : List (List Tensor × List Tensor)) : (∀ b ∈ bs, b ∈ p.x.zip p.y) →
    ∀ (k : Nat) (pt : TrainPoint (p.opt.toNet invalidate).rule) (s : Store ℝ) (hist : List ℝ),
    p.State asIdx invalidate given a0 layers D k pt s →
    TrainValid (netOf asIdx invalidate layers) (p.loss.toNet asIdx) a0.value.id (p.opt.toNet invalidate).rule
      ((p.opt.toNet invalidate).params.map fun m => m.value.id) k (bs.map (samples D)) pt →
    ∃ s', bs.foldlM (p.trainBatch asIdx invalidate tmpId) ⟨s, k, hist⟩ = .ok ⟨s', k + bs.length, hist ++
        (trainRun (netOf asIdx invalidate layers) (p.loss.toNet asIdx) a0.value.id (p.opt.toNet invalidate).rule
          ((p.opt.toNet invalidate).params.map fun m => m.value.id) k (bs.map (samples D)) pt).2⟩ ∧
      p.State asIdx invalidate given a0 layers D (k + bs.length) (trainRun (netOf asIdx invalidate layers) (p.loss.toNet asIdx) a0.value.id (p.opt.toNet invalidate).rule
          ((p.opt.toNet invalidate).params.map fun m => m.value.id) k (bs.map (samples D)) pt).1 s' := by
  induction bs with
  | nil =>
    intro _ k pt s hist hs _
    exact ⟨s, by simp [trainRun, pure, Except.pure], hs⟩
  | cons b bs ih =>
    intro hmem k pt s hist hs hv
    obtain ⟨s1, e1, h1⟩ := trainBatch_ok fit hl htmp hist hs (hmem b (by simp)) hv.1
    obtain ⟨s2, e2, h2⟩ := ih (fun b' h => hmem b' (by simp [h])) (k + 1) _ s1 (hist ++ [_]) h1 hv.2
    refine ⟨s2, ?_, ?_⟩
    · rw [List.foldlM_cons, e1, M.bind_ok, e2]
      simp only [List.map_cons, trainRun, List.append_assoc, List.singleton_append, List.length_cons]
      rw [show k + 1 + bs.length = k + (bs.length + 1) by omega]
    · rw [show k + (b :: bs).length = k + 1 + bs.length by simp; omega]
      exact h2

private theorem forN_foldlM {σ β : Type} (f : σ → β → M σ) (xs : List β) (n : Nat) (st : σ) :
    forN n (fun _ st => xs.foldlM f st) st = ((List.replicate n xs).flatten).foldlM f st := by
  induction n with
  | zero => rfl
  | succ n ih => rw [forN_succ, ih, List.replicate_succ', List.flatten_append, List.foldlM_append]; simp

/-- **Training.** With the cross entropy loss, `train_async` makes one step of the optimizer per batch and epoch: whatever the contents of activations, gradients and tensors of
the loss function before, and whatever the tiles, no call fails, the parameters and the states of the optimizer after training are those obtained by the update rule with the
gradient of the loss of each batch in turn, and `loss_hist` is the list of the losses of the batches (each before its step). -/
theorem C44_train (fit : p.Fits asIdx invalidate given a0 acts layers) {l : CrossEntropy ℝ} (hl : p.loss = .crossEntropy l) {tmpId : Nat} (htmp : tmpId ≠ p.loss.val.id)
    {D : Env} {k : Nat} {pt : TrainPoint (p.opt.toNet invalidate).rule} {s : Store ℝ} (hs : p.State asIdx invalidate given a0 layers D k pt s)
    (hv : TrainValid (netOf asIdx invalidate layers) (p.loss.toNet asIdx) a0.value.id (p.opt.toNet invalidate).rule
      ((p.opt.toNet invalidate).params.map fun m => m.value.id) k ((List.replicate p.nEpochs ((p.x.zip p.y).map (samples D))).flatten) pt) :
    ∃ st, p.trainAsync asIdx invalidate tmpId ⟨s, k, []⟩ = .ok st ∧ st.steps = k + p.nEpochs * (p.x.zip p.y).length ∧
      st.lossHist = (trainRun (netOf asIdx invalidate layers) (p.loss.toNet asIdx) a0.value.id (p.opt.toNet invalidate).rule
        ((p.opt.toNet invalidate).params.map fun m => m.value.id) k ((List.replicate p.nEpochs ((p.x.zip p.y).map (samples D))).flatten) pt).2 ∧
      p.State asIdx invalidate given a0 layers D st.steps (trainRun (netOf asIdx invalidate layers) (p.loss.toNet asIdx) a0.value.id (p.opt.toNet invalidate).rule
        ((p.opt.toNet invalidate).params.map fun m => m.value.id) k ((List.replicate p.nEpochs ((p.x.zip p.y).map (samples D))).flatten) pt).1 st.store := by
  have em : (List.replicate p.nEpochs ((p.x.zip p.y).map (samples D))).flatten = ((List.replicate p.nEpochs (p.x.zip p.y)).flatten).map (samples D) := by
    rw [List.map_flatten, List.map_replicate]
  have el : ((List.replicate p.nEpochs (p.x.zip p.y)).flatten).length = p.nEpochs * (p.x.zip p.y).length := by
    rw [List.length_flatten, List.map_replicate, List.sum_replicate, smul_eq_mul]
  rw [em] at hv ⊢
  obtain ⟨s', e, h⟩ := train_list fit hl htmp (D := D) (List.replicate p.nEpochs (p.x.zip p.y)).flatten (fun b hb => by
    obtain ⟨x, hx, hb⟩ := List.mem_flatten.1 hb
    rwa [List.eq_of_mem_replicate hx] at hb) k pt s [] hs hv
  rw [el] at e h
  rw [List.nil_append] at e
  rw [Pipeline.trainAsync, forN_foldlM, e]
  exact ⟨_, rfl, rfl, rfl, h⟩

end NNTile
