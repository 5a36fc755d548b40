import Verif.Spec.Optim
import Verif.Lib.Layer
import Verif.Lib.Network
import Verif.Lib.Schedule
/-!
# Loops over the parameters of an optimizer
-/
namespace NNTile
variable {α : Type}

theorem RunsT.imp {p : M (List (Task α))} {s : Store α} {ids ids' : List Nat} {P Q : Store α → Prop} (h : RunsT p s ids P)
    (hi : ∀ i ∈ ids, i ∈ ids') (hPQ : ∀ s', OnlyChanged ids s s' → P s' → Q s') : RunsT p s ids' Q := by
  obtain ⟨t, s', h1, h2, h3, h4⟩ := h
  exact ⟨t, s', h1, h2, h3.mono hi, hPQ _ h3 h4⟩

theorem RunsT.nil {s : Store α} {ids : List Nat} {P : Store α → Prop} (h : P s) : RunsT (seqTasks []) s ids P :=
  ⟨[], s, rfl, rfl, fun _ _ => rfl, h⟩

theorem RunsT.cons {p : M (List (Task α))} {ps : List (M (List (Task α)))} {s : Store α} {ids : List Nat} {P Q : Store α → Prop}
    (h : RunsT p s ids Q) (k : ∀ s', OnlyChanged ids s s' → Q s' → RunsT (seqTasks ps) s' ids P) : RunsT (seqTasks (p :: ps)) s ids P := by
  obtain ⟨t, s1, e1, e2, e3, e4⟩ := h
  obtain ⟨t', s2, f1, f2, f3, f4⟩ := k s1 e3 e4
  refine ⟨t ++ t', s2, ?_, ?_, (e3.trans f3).mono (by simp), f4⟩
  · simp only [seqTasks, e1, f1, M.bind_ok]
  · rw [runAll_append, e2, M.bind_ok, f2]

theorem RunsT.cons' {p : M (List (Task α))} {ps : List (M (List (Task α)))} {s : Store α} {ids ids' : List Nat} {P Q : Store α → Prop}
    (h : RunsT p s ids' Q) (hi : ∀ i ∈ ids', i ∈ ids) (k : ∀ s', OnlyChanged ids' s s' → Q s' → RunsT (seqTasks ps) s' ids P) :
    RunsT (seqTasks (p :: ps)) s ids P :=
  RunsT.cons (h.imp hi (Q := fun s' => OnlyChanged ids' s s' ∧ Q s') (fun _ hc hq => ⟨hc, hq⟩)) (fun s' _ hq => k s' hq.1 hq.2)

theorem Runs.lift {p : M (List (Task1 α))} {s : Store α} {ids : List Nat} {P : Store α → Prop} (h : Runs p s ids P) : RunsT (liftTasks p) s ids P := by
  obtain ⟨t, s', h1, h2, h3, h4⟩ := h
  exact ⟨t.map Task1.toTask, s', by rw [liftTasks, h1, M.bind_ok], h2, h3, h4⟩

theorem liftTasks_seq (ps : List (M (List (Task1 α)))) : liftTasks (seqAsync ps) = seqTasks (ps.map liftTasks) := by
  induction ps with
  | nil => rfl
  | cons p ps ih =>
    rw [List.map_cons, seqTasks, ← ih]
    simp only [seqAsync, liftTasks, bind_assoc]
    cases p with
    | error e => rfl
    | ok t =>
      simp only [M.bind_ok]
      cases seqAsync ps with
      | error e => rfl
      | ok ts => simp only [M.bind_ok, List.map_append]

/-- Independent operations. -/
theorem RunsT.list {γ : Type} (f : γ → M (List (Task α))) (ids : γ → List Nat) (Pre Post : γ → Store α → Prop) (L : List γ)
    (dis : L.Pairwise fun a b => ∀ i ∈ ids a, i ∉ ids b) (step : ∀ c ∈ L, ∀ s, Pre c s → RunsT (f c) s (ids c) (Post c))
    (keepPre : ∀ c ∈ L, ∀ s s' K, (∀ i ∈ ids c, i ∉ K) → OnlyChanged K s s' → Pre c s → Pre c s')
    (keepPost : ∀ c ∈ L, ∀ s s' K, (∀ i ∈ ids c, i ∉ K) → OnlyChanged K s s' → Post c s → Post c s') :
    ∀ s, (∀ c ∈ L, Pre c s) → RunsT (seqTasks (L.map f)) s (L.flatMap ids) (fun s' => ∀ c ∈ L, Post c s') := by
  induction L with
  | nil => intro s _; exact RunsT.nil (by simp)
  | cons c L ih =>
    intro s hp
    rw [List.pairwise_cons] at dis
    rw [List.map_cons]
    refine (step c (by simp) s (hp c (by simp))).cons' (fun i hi => by simp [hi]) fun s1 c1 q1 => ?_
    have h1 : ∀ c' ∈ L, Pre c' s1 := fun c' hc' =>
      keepPre c' (by simp [hc']) s s1 _ (fun i hi hi' => dis.1 c' hc' i hi' hi) c1 (hp c' (by simp [hc']))
    refine (ih dis.2 (fun c' hc' => step c' (by simp [hc'])) (fun c' hc' => keepPre c' (by simp [hc'])) (fun c' hc' => keepPost c' (by simp [hc'])) s1 h1).imp
      (fun i hi => by simp [hi]) fun s' c2 q2 => ?_
    refine List.forall_mem_cons.2 ⟨keepPost c (by simp) s1 s' _ (fun i hi hi' => ?_) c2 q1, q2⟩
    obtain ⟨c', hc', hi'⟩ := List.mem_flatMap.1 hi'
    exact dis.1 c' hc' i hi hi'

/-- The identities of the tensors which belong to parameter number `i`. -/
def slotIds (tens : List (List Tensor)) (c : Moments × Nat) : List Nat := [c.1.value.id, c.1.grad.id] ++ tens.filterMap fun l => (l[c.2]?).map Tensor.id

theorem mem_slotIds {tens : List (List Tensor)} {c : Moments × Nat} {i : Nat} :
    i ∈ slotIds tens c ↔ i = c.1.value.id ∨ i = c.1.grad.id ∨ ∃ l ∈ tens, ∃ T, l[c.2]? = some T ∧ T.id = i := by
  simp only [slotIds, List.mem_append, List.mem_cons, List.not_mem_nil, or_false, List.mem_filterMap, Option.map_eq_some_iff]
  tauto

theorem OptFits.pairwise {params : List Moments} {tens : List (List Tensor)} (h : OptFits params tens) :
    params.zipIdx.Pairwise fun a b => ∀ i ∈ slotIds tens a, i ∉ slotIds tens b := by
  have hn := h.ids
  rw [List.map_append, List.nodup_append] at hn
  obtain ⟨hp, ht, hd⟩ := hn
  rw [paramTensors, List.map_flatMap, List.nodup_flatMap] at hp
  rw [List.pairwise_iff_getElem]
  intro i j hi hj hij k hk hk'
  simp only [List.getElem_zipIdx, Nat.zero_add] at hk hk'
  simp only [List.length_zipIdx] at hi hj
  rw [mem_slotIds] at hk hk'
  simp only at hk hk'
  have hpp := List.pairwise_iff_getElem.1 hp.2 i j hi hj hij
  have dis : ∀ n (hn : n < params.length) k, k = params[n].value.id ∨ k = params[n].grad.id → ∀ l ∈ tens, ∀ (m : Nat) (T : Tensor), l[m]? = some T → T.id ≠ k := by
    intro n hn k hk l hl m T hT e
    refine hd k ?_ T.id ?_ e.symm
    · refine List.mem_map.2 ?_
      rcases hk with rfl | rfl
      · exact ⟨params[n].value, List.mem_flatMap.2 ⟨params[n], List.getElem_mem hn, by simp⟩, rfl⟩
      · exact ⟨params[n].grad, List.mem_flatMap.2 ⟨params[n], List.getElem_mem hn, by simp⟩, rfl⟩
    · exact List.mem_map_of_mem (List.mem_flatten.2 ⟨l, hl, List.mem_of_getElem? hT⟩)
  rw [← or_assoc] at hk hk'
  rcases hk with hk | ⟨l, hl, T, hT, rfl⟩
  · rcases hk' with hk' | ⟨l', hl', T', hT', e⟩
    · refine hpp (a := k) ?_ ?_ <;> simpa [eq_comm] using by assumption
    · exact dis i hi k hk l' hl' j T' hT' e
  · rcases hk' with hk' | ⟨l', hl', T', hT', e⟩
    · exact dis j hj _ hk' l hl i T hT rfl
    · -- two of the optimizer's tensors
      rw [List.map_flatten, List.nodup_flatten] at ht
      by_cases hll : l = l'
      · subst hll
        have hnl := ht.1 (l.map Tensor.id) (List.mem_map_of_mem hl)
        have hi' : i < (l.map Tensor.id).length := by simpa using (List.getElem?_eq_some_iff.1 hT).1
        have hj' : j < (l.map Tensor.id).length := by simpa using (List.getElem?_eq_some_iff.1 hT').1
        have := (List.Nodup.getElem_inj_iff hnl (hi := hi') (hj := hj')).1 (by
          rw [List.getElem_map, List.getElem_map, (List.getElem?_eq_some_iff.1 hT).2, (List.getElem?_eq_some_iff.1 hT').2, e])
        omega
      · obtain ⟨a, ha, ea⟩ := List.getElem_of_mem hl
        obtain ⟨b, hb, eb⟩ := List.getElem_of_mem hl'
        have hab : a ≠ b := by
          rintro rfl
          exact hll (ea.symm.trans eb)
        have hpw := List.pairwise_iff_getElem.1 ht.2
        have m1 : T.id ∈ l.map Tensor.id := List.mem_map_of_mem (List.mem_of_getElem? hT)
        have m2 : T.id ∈ l'.map Tensor.id := e ▸ List.mem_map_of_mem (List.mem_of_getElem? hT')
        rcases Nat.lt_or_gt_of_ne hab with hlt | hlt
        · refine hpw a b (by simpa using ha) (by simpa using hb) hlt ?_ ?_ (a := T.id)
          · simpa [ea] using m1
          · simpa [eb] using m2
        · refine hpw b a (by simpa using hb) (by simpa using ha) hlt ?_ ?_ (a := T.id)
          · simpa [eb] using m2
          · simpa [ea] using m1

theorem slotIds_subset {params : List Moments} {tens : List (List Tensor)} {i : Nat} (h : i ∈ params.zipIdx.flatMap (slotIds tens)) :
    i ∈ (paramTensors params ++ tens.flatten).map Tensor.id := by
  obtain ⟨c, hc, hi⟩ := List.mem_flatMap.1 h
  obtain ⟨p, n⟩ := c
  have hp : p ∈ params := by
    rw [List.mem_zipIdx_iff_getElem?] at hc
    exact List.mem_of_getElem? hc
  rw [mem_slotIds] at hi
  rcases hi with rfl | rfl | ⟨l, hl, T, hT, rfl⟩
  · exact List.mem_map.2 ⟨p.value, List.mem_append_left _ (List.mem_flatMap.2 ⟨p, hp, by simp⟩), rfl⟩
  · exact List.mem_map.2 ⟨p.grad, List.mem_append_left _ (List.mem_flatMap.2 ⟨p, hp, by simp⟩), rfl⟩
  · exact List.mem_map.2 ⟨T, List.mem_append_right _ (List.mem_flatten.2 ⟨l, hl, List.mem_of_getElem? hT⟩), rfl⟩


/-- A loop over the parameters, each with its own tensors. -/
theorem opt_loop {params : List Moments} {tens : List (List Tensor)} (fit : OptFits params tens) {rule : OptRule} (k : Nat) (f : Moments → Nat → M (List (Task ℝ)))
    (Sl Sl' : Moments × Nat → (List Nat → rule.Aux) → Store ℝ → Prop)
    (keep : ∀ c a s s' K, (∀ i ∈ slotIds tens c, i ∉ K) → OnlyChanged K s s' → Sl c a s → Sl c a s')
    (keep' : ∀ c a s s' K, (∀ i ∈ slotIds tens c, i ∉ K) → OnlyChanged K s s' → Sl' c a s → Sl' c a s')
    (step : ∀ (p : Moments) (i : Nat), params[i]? = some p → ∀ s (θ g : List Nat → ℝ) a, p.value.Ready s → p.grad.Ready s → p.value.Holds s θ → p.grad.Holds s g → Sl (p, i) a s →
      RunsT (f p i) s (slotIds tens (p, i)) (fun s' => p.value.Ready s' ∧ p.grad.Ready s' ∧
        p.value.Holds s' (fun J => (rule.step k (θ J) (g J) (a J)).1) ∧ Sl' (p, i) (fun J => (rule.step k (θ J) (g J) (a J)).2) s'))
    (s : Store ℝ) (θ g : Env) (a : Nat → List Nat → rule.Aux) (hr : AllReady (paramTensors params) s)
    (hh : ∀ p ∈ params, p.value.Holds s (θ p.value.id) ∧ p.grad.Holds s (g p.value.id))
    (hs : ∀ (i : Nat) (p : Moments), params[i]? = some p → Sl (p, i) (a p.value.id) s) :
    RunsT (seqTasks (params.zipIdx.map fun c => f c.1 c.2)) s ((paramTensors params ++ tens.flatten).map Tensor.id) (fun s' =>
      AllReady (paramTensors params) s' ∧
      (∀ p ∈ params, p.value.Holds s' (fun J => (rule.step k (θ p.value.id J) (g p.value.id J) (a p.value.id J)).1)) ∧
      ∀ (i : Nat) (p : Moments), params[i]? = some p → Sl' (p, i) (fun J => (rule.step k (θ p.value.id J) (g p.value.id J) (a p.value.id J)).2) s') := by
  have hmem : ∀ c : Moments × Nat, c ∈ params.zipIdx ↔ params[c.2]? = some c.1 := fun c => List.mem_zipIdx_iff_getElem?
  have hvmem : ∀ c : Moments × Nat, c.1.value.id ∈ slotIds tens c := fun c => mem_slotIds.2 (.inl rfl)
  have hgmem : ∀ c : Moments × Nat, c.1.grad.id ∈ slotIds tens c := fun c => mem_slotIds.2 (.inr (.inl rfl))
  let Pre : Moments × Nat → Store ℝ → Prop := fun c s => c.1.value.Ready s ∧ c.1.grad.Ready s ∧ c.1.value.Holds s (θ c.1.value.id) ∧
    c.1.grad.Holds s (g c.1.value.id) ∧ Sl c (a c.1.value.id) s
  let Post : Moments × Nat → Store ℝ → Prop := fun c s => c.1.value.Ready s ∧ c.1.grad.Ready s ∧
    c.1.value.Holds s (fun J => (rule.step k (θ c.1.value.id J) (g c.1.value.id J) (a c.1.value.id J)).1) ∧
    Sl' c (fun J => (rule.step k (θ c.1.value.id J) (g c.1.value.id J) (a c.1.value.id J)).2) s
  have key := RunsT.list (fun c : Moments × Nat => f c.1 c.2) (slotIds tens) Pre Post params.zipIdx fit.pairwise ?_ ?_ ?_ s ?_
  · refine key.imp (fun i hi => slotIds_subset hi) fun s' _ hp => ?_
    have hp' : ∀ p ∈ params, ∃ i, params[i]? = some p ∧ Post (p, i) s' := by
      intro p hp1
      obtain ⟨i, hi⟩ := List.mem_iff_getElem?.1 hp1
      exact ⟨i, hi, hp (p, i) ((hmem _).2 hi)⟩
    refine ⟨?_, ?_, fun i p hi => (hp (p, i) ((hmem _).2 hi)).2.2.2⟩
    · intro T hT
      obtain ⟨p, hp1, hT⟩ := List.mem_flatMap.1 hT
      obtain ⟨i, -, q⟩ := hp' p hp1
      simp only [List.mem_cons, List.not_mem_nil, or_false] at hT
      rcases hT with rfl | rfl
      exacts [q.1, q.2.1]
    · intro p hp1
      obtain ⟨i, -, q⟩ := hp' p hp1
      exact q.2.2.1
  · rintro ⟨p, i⟩ hc s1 ⟨r1, r2, r3, r4, r5⟩
    exact step p i ((hmem _).1 hc) s1 _ _ _ r1 r2 r3 r4 r5
  · rintro c hc s1 s2 K hK hcg ⟨r1, r2, r3, r4, r5⟩
    exact ⟨hcg.ready r1 (hK _ (hvmem c)), hcg.ready r2 (hK _ (hgmem c)), hcg.holds r3 (hK _ (hvmem c)), hcg.holds r4 (hK _ (hgmem c)), keep c _ s1 s2 K hK hcg r5⟩
  · rintro c hc s1 s2 K hK hcg ⟨r1, r2, r3, r5⟩
    exact ⟨hcg.ready r1 (hK _ (hvmem c)), hcg.ready r2 (hK _ (hgmem c)), hcg.holds r3 (hK _ (hvmem c)), keep' c _ s1 s2 K hK hcg r5⟩
  · rintro ⟨p, i⟩ hc
    have hpi := (hmem _).1 hc
    have hp : p ∈ params := List.mem_of_getElem? hpi
    exact ⟨hr _ (List.mem_flatMap.2 ⟨p, hp, by simp⟩), hr _ (List.mem_flatMap.2 ⟨p, hp, by simp⟩), (hh p hp).1, (hh p hp).2, hs i p hpi⟩

theorem OptFits.get {params : List Moments} {tens : List (List Tensor)} (fit : OptFits params tens) {l : List Tensor} (hl : l ∈ tens) {i : Nat} {p : Moments}
    (hp : params[i]? = some p) : ∃ T, l[i]? = some T ∧ T.shape = p.value.shape ∧ T.basetile = p.value.basetile := by
  have hi : i < params.length := (List.getElem?_eq_some_iff.1 hp).1
  have hT : l[i]? = some (l[i]'(by rw [fit.len l hl]; exact hi)) := List.getElem?_eq_getElem _
  refine ⟨_, hT, fit.like l hl (p, _) ?_⟩
  exact List.mem_iff_getElem?.2 ⟨i, List.getElem?_zip_eq_some.2 ⟨hp, hT⟩⟩

/-- All tensors of one parameter are different. -/
theorem OptFits.slot_nodup {params : List Moments} {tens : List (List Tensor)} (fit : OptFits params tens) {i : Nat} {p : Moments} (hp : params[i]? = some p) :
    (slotIds tens (p, i)).Nodup := by
  have hn := fit.ids
  rw [List.map_append, List.nodup_append] at hn
  obtain ⟨h1, h2, h3⟩ := hn
  have hpm : p ∈ params := List.mem_of_getElem? hp
  rw [slotIds, List.nodup_append]
  refine ⟨?_, ?_, ?_⟩
  · rw [paramTensors, List.map_flatMap, List.nodup_flatMap] at h1
    exact h1.1 p hpm
  · rw [List.map_flatten, List.nodup_flatten] at h2
    have h2 := h2.2
    clear h1 h3
    have : ∀ tens : List (List Tensor), (tens.map (List.map Tensor.id)).Pairwise List.Disjoint → (tens.filterMap fun l => (l[i]?).map Tensor.id).Nodup := by
      intro tens
      induction tens with
      | nil => simp
      | cons l tens ih =>
        intro h
        rw [List.map_cons, List.pairwise_cons] at h
        rw [List.filterMap_cons]
        cases hT : l[i]? with
        | none => exact ih h.2
        | some T =>
          simp only [Option.map_some]
          refine List.nodup_cons.2 ⟨fun hc => ?_, ih h.2⟩
          obtain ⟨l', hl', e⟩ := List.mem_filterMap.1 hc
          obtain ⟨T', hT', e⟩ := Option.map_eq_some_iff.1 e
          exact h.1 (l'.map Tensor.id) (List.mem_map_of_mem hl') (List.mem_map_of_mem (List.mem_of_getElem? hT)) (e ▸ List.mem_map_of_mem (List.mem_of_getElem? hT'))
    exact this tens h2
  · intro x hx y hy
    refine h3 x ?_ y ?_
    · simp only [List.mem_cons, List.not_mem_nil, or_false] at hx
      refine List.mem_map.2 ?_
      rcases hx with rfl | rfl
      exacts [⟨p.value, List.mem_flatMap.2 ⟨p, hpm, by simp⟩, rfl⟩, ⟨p.grad, List.mem_flatMap.2 ⟨p, hpm, by simp⟩, rfl⟩]
    · obtain ⟨l, hl, e⟩ := List.mem_filterMap.1 hy
      obtain ⟨T, hT, e⟩ := Option.map_eq_some_iff.1 e
      exact e ▸ List.mem_map_of_mem (List.mem_flatten.2 ⟨l, hl, List.mem_of_getElem? hT⟩)

/-! ### Construction -/

/-- New tensors, one for each parameter, with identities `id 0`, `id 1`, … -/
def freshFor (params : List Moments) (id : Nat → Nat) : List Tensor := params.mapIdx fun i p => ⟨id i, p.value.shape, p.value.basetile⟩

theorem freshFor_get {params : List Moments} {id : Nat → Nat} {i : Nat} {T : Tensor} :
    (freshFor params id)[i]? = some T ↔ ∃ p, params[i]? = some p ∧ T = ⟨id i, p.value.shape, p.value.basetile⟩ := by
  rw [freshFor, List.getElem?_mapIdx, Option.map_eq_some_iff]
  constructor
  · rintro ⟨p, h, rfl⟩; exact ⟨p, h, rfl⟩
  · rintro ⟨p, h, rfl⟩; exact ⟨p, h, rfl⟩

theorem newStates_ok {params : List Moments} : ∀ {next : Nat}, (∀ p ∈ params, p.value.WF) → newStates next params = .ok (freshFor params fun i => next + i) := by
  induction params with
  | nil => intro _ _; rfl
  | cons p ps ih =>
    intro next h
    rw [newStates, newTensor_ok (h p (by simp)), M.bind_ok, ih (fun q hq => h q (by simp [hq])), M.bind_ok]
    simp only [freshFor, List.mapIdx_cons, Nat.add_zero]
    congr 2
    refine congrArg (List.mapIdx · ps) (funext fun i => ?_)
    rw [show next + 1 + i = next + (i + 1) by omega]

theorem newMoments_ok {params : List Moments} : ∀ {next : Nat}, (∀ p ∈ params, p.value.WF) →
    newMoments next params = .ok (freshFor params fun i => next + 2 * i, freshFor params fun i => next + 1 + 2 * i) := by
  induction params with
  | nil => intro _ _; rfl
  | cons p ps ih =>
    intro next h
    rw [newMoments, newTensor_ok (h p (by simp)), M.bind_ok, newTensor_ok (h p (by simp)), M.bind_ok, ih (fun q hq => h q (by simp [hq])), M.bind_ok]
    simp only [freshFor, List.mapIdx_cons, Nat.add_zero, Nat.mul_zero]
    have e1 : ∀ i, next + 2 + 2 * i = next + 2 * (i + 1) := fun i => by omega
    have e2 : ∀ i, next + 2 + 1 + 2 * i = next + 1 + 2 * (i + 1) := fun i => by omega
    simp only [e1, e2]

theorem newMoments3_ok {amsgrad : Bool} {params : List Moments} : ∀ {next : Nat}, (∀ p ∈ params, p.value.WF) →
    newMoments3 amsgrad next params = .ok (freshFor params fun i => next + 3 * i, freshFor params fun i => next + 1 + 3 * i,
      if amsgrad then freshFor params fun i => next + 2 + 3 * i else []) := by
  induction params with
  | nil => intro _ _; cases amsgrad <;> rfl
  | cons p ps ih =>
    intro next h
    rw [newMoments3, newTensor_ok (h p (by simp)), M.bind_ok, newTensor_ok (h p (by simp)), M.bind_ok, newTensor_ok (h p (by simp)), ih (fun q hq => h q (by simp [hq]))]
    have e1 : ∀ i, next + 3 + 3 * i = next + 3 * (i + 1) := fun i => by omega
    have e2 : ∀ i, next + 3 + 1 + 3 * i = next + 1 + 3 * (i + 1) := fun i => by omega
    have e3 : ∀ i, next + 3 + 2 + 3 * i = next + 2 + 3 * (i + 1) := fun i => by omega
    cases amsgrad <;> simp only [freshFor, List.mapIdx_cons, Nat.add_zero, Nat.mul_zero, e1, e2, e3, M.bind_ok, if_true, if_false, Bool.false_eq_true, List.nil_append,
      List.singleton_append]

/-- New tensors with new identities fit. -/
theorem OptFits.fresh {params : List Moments} (h : OptFits params []) {next : Nat} (hb : ∀ T ∈ paramTensors params, T.id < next) (ids : List (Nat → Nat))
    (hge : ∀ f ∈ ids, ∀ i, next ≤ f i) (hinj : ∀ f ∈ ids, Function.Injective f) (hdis : ids.Pairwise fun f g => ∀ i j, f i ≠ g j) :
    OptFits params (ids.map (freshFor params)) := by
  have hid : ∀ f, (freshFor params f).map Tensor.id = (List.range params.length).map f := by
    intro f
    apply List.ext_getElem?
    intro i
    rw [List.getElem?_map, List.getElem?_map, freshFor, List.getElem?_mapIdx]
    by_cases hi : i < params.length
    · simp [hi]
    · simp [hi]
  refine ⟨?_, h.grad, ?_, ?_⟩
  · rw [List.map_append, List.nodup_append]
    have h0 := h.ids
    simp only [List.flatten_nil, List.append_nil] at h0
    refine ⟨h0, ?_, ?_⟩
    · rw [List.map_flatten, List.nodup_flatten]
      refine ⟨?_, ?_⟩
      · intro l hl
        simp only [List.mem_map] at hl
        obtain ⟨_, ⟨f, hf, rfl⟩, rfl⟩ := hl
        rw [hid]
        exact (List.nodup_range).map (hinj f hf)
      · rw [List.map_map]
        refine List.Pairwise.map _ (fun f g hfg => ?_) hdis
        simp only [Function.comp, hid]
        intro a ha hb
        obtain ⟨i, -, rfl⟩ := List.mem_map.1 ha
        obtain ⟨j, -, e⟩ := List.mem_map.1 hb
        exact hfg i j e.symm
    · intro a ha b hb' e
      obtain ⟨T, hT, rfl⟩ := List.mem_map.1 ha
      obtain ⟨T', hT', rfl⟩ := List.mem_map.1 hb'
      obtain ⟨l, hl, hT'⟩ := List.mem_flatten.1 hT'
      obtain ⟨f, hf, rfl⟩ := List.mem_map.1 hl
      obtain ⟨i, hi⟩ := List.mem_iff_getElem?.1 hT'
      obtain ⟨p, -, rfl⟩ := freshFor_get.1 hi
      have h1 := hb T hT
      have h2 := hge f hf i
      simp only at e
      omega
  · intro l hl
    obtain ⟨f, hf, rfl⟩ := List.mem_map.1 hl
    simp [freshFor]
  · intro l hl pT hpT
    obtain ⟨f, hf, rfl⟩ := List.mem_map.1 hl
    obtain ⟨i, hi⟩ := List.mem_iff_getElem?.1 hpT
    rw [List.getElem?_zip_eq_some] at hi
    obtain ⟨p, hp, e⟩ := freshFor_get.1 hi.2
    rw [hi.1] at hp
    cases hp
    rw [e]
    exact ⟨rfl, rfl⟩

end NNTile
