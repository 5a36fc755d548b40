import Verif.Lib.Optim
import Verif.Lib.Store
import Verif.Props.C09
import Verif.Props.C11
import Verif.Props.C11Axpy
import Mathlib.Tactic.FinCases
/-!
# C41: the optimizer SGD
-/
namespace NNTile

private theorem zip_get {params : List Moments} {states : List Tensor} {pT : Moments × Tensor} :
    pT ∈ params.zip states ↔ ∃ i : Nat, params[i]? = some pT.1 ∧ states[i]? = some pT.2 := by
  constructor
  · intro h
    obtain ⟨i, hi⟩ := List.mem_iff_getElem?.1 h
    rw [List.getElem?_zip_eq_some] at hi
    exact ⟨i, hi⟩
  · rintro ⟨i, h⟩
    exact List.mem_iff_getElem?.2 ⟨i, List.getElem?_zip_eq_some.2 h⟩

/-- One parameter without momentum. -/
private theorem step_plain {o : SGD ℝ} (hmu : ¬ 0 < o.momentum) {k i : Nat} {p : Moments} {s : Store ℝ} (hid : p.value.id ≠ p.grad.id)
    (hgrad : p.grad.shape = p.value.shape ∧ p.grad.basetile = p.value.basetile) (hv : p.value.Ready s) (hg : p.grad.Ready s) {θ g : List Nat → ℝ}
    (hθ : p.value.Holds s θ) (hgh : p.grad.Holds s g) :
    Runs (o.stepParam k p i) s [p.value.id, p.grad.id] (fun s' => p.value.Ready s' ∧ p.grad.Ready s' ∧ p.value.Holds s' (fun J => θ J - o.lr * (g J + o.weightDecay * θ J))) := by
  let L : Fin 2 → Tensor := ![p.value, p.grad]
  have inj : Function.Injective fun i => (L i).id := by
    intro i j e
    fin_cases i <;> fin_cases j <;> first | rfl | exact absurd e hid | exact absurd e.symm hid
  have h0 : St L s ![some θ, some g] := ⟨fun i => by fin_cases i; exacts [hv, hg], fun i w hw => by
    fin_cases i
    · cases hw; exact hθ
    · cases hw; exact hgh⟩
  have hm : FP.ltb 0 o.momentum = false := decide_eq_false hmu
  have wd : Computes (whenAsync (!FP.eqb o.weightDecay 0) (axpyScalarAsync o.weightDecay p.value p.grad)) s p.grad (fun J => g J + o.weightDecay * θ J) := by
    by_cases hw : o.weightDecay = 0
    · have h0 : (!FP.eqb o.weightDecay 0) = false := by simp [hw]
      simp only [h0, whenAsync, Bool.false_eq_true, if_false]
      exact (Computes.skip hgh hg).congr fun J _ => by rw [hw, zero_mul, add_zero]
    · have : (!FP.eqb o.weightDecay 0) = true := by simpa using hw
      simp only [whenAsync, this, if_true]
      exact (C11_axpy_scalar hv hg ⟨hid, hgrad.1.symm, hgrad.2.symm⟩ _ _ _ hθ hgh).congr fun J _ => add_comm _ _
  rw [SGD.stepParam]
  refine h0.step inj (i := 1) wd (by simp [L]) fun s1 h1 => ?_
  simp only [hm, whenAsync, Bool.false_eq_true, if_false]
  refine (Runs.skip (P := fun s' => s' = s1) rfl).cons fun s2 _ e2 => ?_
  subst e2
  refine h1.step inj (i := 0) (C11_axpy_scalar (h1.ready 1) (h1.ready 0) ⟨Ne.symm hid, hgrad.1, hgrad.2⟩ (-o.lr) _ _ (h1.hold 1 _ rfl) (h1.hold 0 _ rfl))
    (by simp [L]) fun s3 h3 => ?_
  refine Runs.nil ⟨h3.ready 0, h3.ready 1, fun J hJ => ?_⟩
  refine (h3.hold 0 _ rfl J hJ).trans (congrArg some ?_)
  ring

/-- One parameter with momentum. -/
private theorem step_momentum {o : SGD ℝ} (hmu : 0 < o.momentum) {k i : Nat} {p : Moments} {T : Tensor} (hT : o.states[i]? = some T) {s : Store ℝ}
    (hids : [p.value.id, p.grad.id, T.id].Nodup)
    (hgrad : p.grad.shape = p.value.shape ∧ p.grad.basetile = p.value.basetile) (hlike : T.shape = p.value.shape ∧ T.basetile = p.value.basetile)
    (hv : p.value.Ready s) (hg : p.grad.Ready s) (hTr : T.Ready s) {θ g b : List Nat → ℝ}
    (hθ : p.value.Holds s θ) (hgh : p.grad.Holds s g) (hb : k ≠ 0 → T.Holds s b) (g' b' : List Nat → ℝ) (hg' : ∀ J, g' J = g J + o.weightDecay * θ J)
    (hb' : ∀ J, b' J = if k = 0 then g' J else o.momentum * b J + (1 - o.damping) * g' J) :
    Runs (o.stepParam k p i) s [p.value.id, p.grad.id, T.id] (fun s' => p.value.Ready s' ∧ p.grad.Ready s' ∧ T.Ready s' ∧
      p.value.Holds s' (fun J => θ J - o.lr * (if o.nesterov then g' J + o.momentum * b' J else b' J)) ∧ T.Holds s' b') := by
  simp only [List.nodup_cons, List.mem_cons, List.not_mem_nil, or_false, not_or, not_false_eq_true, and_true, List.nodup_nil] at hids
  obtain ⟨⟨i01, i02⟩, i12⟩ := hids
  let L : Fin 3 → Tensor := ![p.value, p.grad, T]
  have inj : Function.Injective fun i => (L i).id := by
    intro i j e
    fin_cases i <;> fin_cases j <;>
      first | rfl | exact absurd e i01 | exact absurd e.symm i01 | exact absurd e i02 | exact absurd e.symm i02 | exact absurd e i12 | exact absurd e.symm i12
  have h0 : St L s ![some θ, some g, if k = 0 then none else some b] := ⟨fun i => by fin_cases i; exacts [hv, hg, hTr], fun i w hw => by
    fin_cases i
    · cases hw; exact hθ
    · cases hw; exact hgh
    · by_cases hk : k = 0
      · simp [hk] at hw
      · simp [hk] at hw
        subst hw
        exact hb hk⟩
  have hm : FP.ltb 0 o.momentum = true := decide_eq_true hmu
  have lgv : (L 1).Like (L 0) := ⟨Ne.symm i01, hgrad.1, hgrad.2⟩
  have lvg : (L 0).Like (L 1) := ⟨i01, hgrad.1.symm, hgrad.2.symm⟩
  have lgT : (L 1).Like (L 2) := ⟨i12, hgrad.1.trans hlike.1.symm, hgrad.2.trans hlike.2.symm⟩
  have lTg : (L 2).Like (L 1) := ⟨Ne.symm i12, hlike.1.trans hgrad.1.symm, hlike.2.trans hgrad.2.symm⟩
  have wd : Computes (whenAsync (!FP.eqb o.weightDecay 0) (axpyScalarAsync o.weightDecay p.value p.grad)) s p.grad g' := by
    by_cases hw : o.weightDecay = 0
    · have e : g' = g := funext fun J => by rw [hg', hw, zero_mul, add_zero]
      have h0 : (!FP.eqb o.weightDecay 0) = false := by simp [hw]
      simp only [h0, whenAsync, Bool.false_eq_true, if_false, e]
      exact Computes.skip hgh hg
    · have : (!FP.eqb o.weightDecay 0) = true := by simpa using hw
      simp only [whenAsync, this, if_true]
      exact (C11_axpy_scalar hv hg lvg _ _ _ hθ hgh).congr fun J _ => by rw [hg', add_comm]
  rw [SGD.stepParam]
  refine h0.step inj (i := 1) wd (by simp [L]) fun s1 h1 => ?_
  have hst : pyTensor o.states i = .ok T := by rw [pyTensor, hT]
  simp only [hm, whenAsync, if_true, hst, M.bind_ok]
  -- the state
  have up : Computes (if k = 0 then copyAsync p.grad T else seqAsync [scalInplaceAsync o.momentum T, axpyScalarAsync (1 - o.damping) p.grad T]) s1 T b' := by
    by_cases hk : k = 0
    · have e : b' = g' := funext fun J => by rw [hb', if_pos hk]
      simp only [if_pos hk, e]
      exact C09_copy (h1.ready 1) (h1.ready 2) lgT _ (h1.hold 1 _ rfl)
    · simp only [if_neg hk]
      refine (C11_scal_inplace (h1.ready 2) o.momentum b (h1.hold 2 b (by simp [Function.update, hk]))).then fun s2 c2 q2 r2 => ?_
      have hgr : (L 1).Ready s2 := c2.ready (h1.ready 1) (by simpa [L] using i12)
      have hgh' : (L 1).Holds s2 g' := c2.holds (h1.hold 1 _ rfl) (by simpa [L] using i12)
      refine ((C11_axpy_scalar hgr r2 lgT (1 - o.damping) _ _ hgh' q2).congr (w := b') fun J _ => ?_).then fun s3 c3 q3 r3 => Computes.nil q3 r3
      rw [hb', if_neg hk, add_comm]
  have mid : Runs (seqAsync [if k = 0 then copyAsync p.grad T else seqAsync [scalInplaceAsync o.momentum T, axpyScalarAsync (1 - o.damping) p.grad T],
      if o.nesterov then axpyScalarAsync o.momentum T p.grad else copyAsync T p.grad]) s1 [p.value.id, p.grad.id, T.id] (fun s' =>
        St L s' ![some θ, some (fun J => if o.nesterov then g' J + o.momentum * b' J else b' J), some b']) := by
    refine h1.step inj (i := 2) up (by simp [L]) fun s2 h2 => ?_
    refine h2.step inj (i := 1) (v := fun J => if o.nesterov then g' J + o.momentum * b' J else b' J) ?_ (by simp [L]) fun s3 h3 => ?_
    · cases hn : o.nesterov with
      | true =>
        simp only [if_true]
        exact (C11_axpy_scalar (h2.ready 2) (h2.ready 1) lTg o.momentum _ _ (h2.hold 2 _ rfl) (h2.hold 1 _ rfl)).congr fun J _ => add_comm _ _
      | false =>
        simp only [Bool.false_eq_true, if_false]
        exact C09_copy (h2.ready 2) (h2.ready 1) lTg _ (h2.hold 2 _ rfl)
    · refine Runs.nil ⟨h3.ready, fun i w hw => h3.hold i w ?_⟩
      fin_cases i <;> exact hw
  refine mid.cons fun s3 _ h3 => ?_
  refine h3.step inj (i := 0) (C11_axpy_scalar (h3.ready 1) (h3.ready 0) lgv (-o.lr) _ _ (h3.hold 1 _ rfl) (h3.hold 0 _ rfl))
    (by simp [L]) fun s4 h4 => ?_
  refine Runs.nil ⟨h4.ready 0, h4.ready 1, h4.ready 2, fun J hJ => ?_, h4.hold 2 _ rfl⟩
  refine (h4.hold 0 _ rfl J hJ).trans (congrArg some ?_)
  ring

/-- **SGD.** Each `step` computes what stochastic gradient descent with momentum, Nesterov momentum, L2 regularisation and dampening (as defined by PyTorch)
prescribes, for every element of every parameter, and changes nothing but the parameters, their gradients and its own tensors. -/
theorem C41_sgd {o : SGD ℝ} (fit : o.Fits) : o.toNet.Correct := by
  have fit' : OptFits o.params (if 0 < o.momentum then [o.states] else []) := fit
  refine ⟨?_, ?_, ?_⟩
  · intro k a s s' ids hc hT h hmu pT hpT
    have hid : pT.2.id ∉ ids := hT _ (by
      show pT.2 ∈ (if 0 < o.momentum then o.states else [])
      rw [if_pos hmu]
      exact (List.of_mem_zip hpT).2)
    obtain ⟨h1, h2⟩ := h hmu pT hpT
    exact ⟨hc.ready h1 hid, fun hk => hc.holds (h2 hk) hid⟩
  · intro s hr hmu pT hpT
    refine ⟨hr _ ?_, fun h => absurd rfl h⟩
    show pT.2 ∈ (if 0 < o.momentum then o.states else [])
    rw [if_pos hmu]
    exact (List.of_mem_zip hpT).2
  · intro k s θ g (a : Nat → List Nat → ℝ) hr hh hs
    change RunsT (liftTasks (o.stepAsync k)) s _ _
    have hflat : (if 0 < o.momentum then [o.states] else []).flatten = (if 0 < o.momentum then o.states else []) := by
      split <;> simp
    let Pre : Moments × Nat → Store ℝ → Prop := fun c s => c.1.value.Ready s ∧ c.1.grad.Ready s ∧ c.1.value.Holds s (θ c.1.value.id) ∧ c.1.grad.Holds s (g c.1.value.id) ∧
      (0 < o.momentum → ∀ T, o.states[c.2]? = some T → T.Ready s ∧ (k ≠ 0 → T.Holds s (a c.1.value.id)))
    let R := sgdRule o.lr o.momentum o.weightDecay o.damping o.nesterov
    let Post : Moments × Nat → Store ℝ → Prop := fun c s => c.1.value.Ready s ∧ c.1.grad.Ready s ∧
      c.1.value.Holds s (fun J => (R.step k (θ c.1.value.id J) (g c.1.value.id J) (a c.1.value.id J)).1) ∧
      (0 < o.momentum → ∀ T, o.states[c.2]? = some T → T.Ready s ∧ T.Holds s (fun J => (R.step k (θ c.1.value.id J) (g c.1.value.id J) (a c.1.value.id J)).2))
    have hmem : ∀ c : Moments × Nat, c ∈ o.params.zipIdx ↔ o.params[c.2]? = some c.1 := fun c => List.mem_zipIdx_iff_getElem?
    have hTmem : ∀ c : Moments × Nat, 0 < o.momentum → ∀ T, o.states[c.2]? = some T → T.id ∈ slotIds (if 0 < o.momentum then [o.states] else []) c := by
      intro c hmu T hT
      rw [mem_slotIds, if_pos hmu]
      exact .inr (.inr ⟨o.states, by simp, T, hT, rfl⟩)
    have hvmem : ∀ c : Moments × Nat, c.1.value.id ∈ slotIds (if 0 < o.momentum then [o.states] else []) c := fun c => mem_slotIds.2 (.inl rfl)
    have hgmem : ∀ c : Moments × Nat, c.1.grad.id ∈ slotIds (if 0 < o.momentum then [o.states] else []) c := fun c => mem_slotIds.2 (.inr (.inl rfl))
    have key := RunsT.list (fun c : Moments × Nat => liftTasks (o.stepParam k c.1 c.2)) (slotIds (if 0 < o.momentum then [o.states] else [])) Pre Post o.params.zipIdx
      fit'.pairwise ?_ ?_ ?_ s ?_
    · refine RunsT.imp (ids := o.params.zipIdx.flatMap (slotIds (if 0 < o.momentum then [o.states] else []))) ?_ ?_ (P := fun s' => ∀ c ∈ o.params.zipIdx, Post c s') ?_
      · rw [SGD.stepAsync, liftTasks_seq, List.map_map]
        exact key
      · intro i hi
        have := slotIds_subset hi
        rw [hflat] at this
        exact this
      · intro s' _ hp
        have hp' : ∀ p ∈ o.params, ∃ i, o.params[i]? = some p ∧ Post (p, i) s' := by
          intro p hp1
          obtain ⟨i, hi⟩ := List.mem_iff_getElem?.1 hp1
          exact ⟨i, hi, hp (p, i) ((hmem _).2 hi)⟩
        refine ⟨?_, ?_, ?_⟩
        · intro T hT
          obtain ⟨p, hp1, hT⟩ := List.mem_flatMap.1 hT
          obtain ⟨i, -, q⟩ := hp' p hp1
          simp only [List.mem_cons, List.not_mem_nil, or_false] at hT
          rcases hT with rfl | rfl
          exacts [q.1, q.2.1]
        · intro p hp1
          obtain ⟨i, -, q⟩ := hp' p hp1
          exact q.2.2.1
        · intro hmu pT hpT
          obtain ⟨i, h1, h2⟩ := zip_get.1 hpT
          obtain ⟨q1, q2⟩ := (hp (pT.1, i) ((hmem _).2 h1)).2.2.2 hmu pT.2 h2
          exact ⟨q1, fun _ => q2⟩
    · -- one parameter
      rintro ⟨p, i⟩ hc s1 ⟨r1, r2, r3, r4, r5⟩
      have hpi := (hmem _).1 hc
      have hp : p ∈ o.params := List.mem_of_getElem? hpi
      have hgr := fit'.grad p hp
      by_cases hmu : 0 < o.momentum
      · rw [if_pos hmu] at fit'
        have hlen := fit'.len o.states (by simp)
        have hi : i < o.params.length := (List.getElem?_eq_some_iff.1 hpi).1
        have hT : o.states[i]? = some o.states[i] := List.getElem?_eq_getElem (by omega)
        obtain ⟨t1, t2⟩ := r5 hmu _ hT
        have hlike := fit'.like o.states (by simp) (p, o.states[i]) (zip_get.2 ⟨i, hpi, hT⟩)
        have hnd : [p.value.id, p.grad.id, o.states[i].id].Nodup := by
          have hn := fit'.ids
          rw [List.map_append, List.nodup_append, paramTensors, List.map_flatMap, List.nodup_flatMap] at hn
          have h1 := hn.1.1 p hp
          have hm1 : ∀ T ∈ [p.value, p.grad], T.id ≠ o.states[i].id := fun T hT => hn.2.2 _ (List.mem_flatMap.2 ⟨p, hp, List.mem_map_of_mem hT⟩) _
            (List.mem_map_of_mem (by simp))
          simp only [List.map_cons, List.map_nil, List.nodup_cons, List.mem_cons, List.not_mem_nil, or_false, not_false_eq_true, and_true, List.nodup_nil, not_or] at h1 ⊢
          exact ⟨⟨h1, hm1 _ (by simp)⟩, hm1 _ (by simp)⟩
        refine (step_momentum hmu hT hnd hgr hlike r1 r2 t1 r3 r4 t2 (fun J => g p.value.id J + o.weightDecay * θ p.value.id J)
          (fun J => if k = 0 then g p.value.id J + o.weightDecay * θ p.value.id J
            else o.momentum * a p.value.id J + (1 - o.damping) * (g p.value.id J + o.weightDecay * θ p.value.id J)) (fun _ => rfl) (fun _ => rfl)).lift.imp ?_ ?_
        · intro j hj
          simp only [List.mem_cons, List.not_mem_nil, or_false] at hj
          rcases hj with rfl | rfl | rfl
          exacts [hvmem (p, i), hgmem (p, i), hTmem (p, i) hmu _ hT]
        · rintro s2 _ ⟨q1, q2, q3, q4, q5⟩
          refine ⟨q1, q2, fun J hJ => ?_, fun _ T' hT' => ?_⟩
          · rw [q4 J hJ]
            simp only [R, sgdRule, if_pos hmu]
          · rw [hT] at hT'
            cases hT'
            refine ⟨q3, fun J hJ => ?_⟩
            rw [q5 J hJ]
            simp only [R, sgdRule, if_pos hmu]
      · have hid : p.value.id ≠ p.grad.id := by
          have hn := fit'.ids
          rw [List.map_append, List.nodup_append, paramTensors, List.map_flatMap, List.nodup_flatMap] at hn
          simpa using hn.1.1 p hp
        refine (step_plain hmu hid hgr r1 r2 r3 r4).lift.imp ?_ ?_
        · intro j hj
          simp only [List.mem_cons, List.not_mem_nil, or_false] at hj
          rcases hj with rfl | rfl
          exacts [hvmem (p, i), hgmem (p, i)]
        · rintro s2 _ ⟨q1, q2, q4⟩
          refine ⟨q1, q2, fun J hJ => ?_, fun h => absurd h hmu⟩
          rw [q4 J hJ]
          simp only [R, sgdRule, if_neg hmu]
    · rintro c hc s1 s2 K hK hcg ⟨r1, r2, r3, r4, r5⟩
      refine ⟨hcg.ready r1 (hK _ (hvmem c)), hcg.ready r2 (hK _ (hgmem c)), hcg.holds r3 (hK _ (hvmem c)), hcg.holds r4 (hK _ (hgmem c)), fun hmu T hT => ?_⟩
      exact ⟨hcg.ready (r5 hmu T hT).1 (hK _ (hTmem c hmu T hT)), fun hk => hcg.holds ((r5 hmu T hT).2 hk) (hK _ (hTmem c hmu T hT))⟩
    · rintro c hc s1 s2 K hK hcg ⟨r1, r2, r3, r5⟩
      refine ⟨hcg.ready r1 (hK _ (hvmem c)), hcg.ready r2 (hK _ (hgmem c)), hcg.holds r3 (hK _ (hvmem c)), fun hmu T hT => ?_⟩
      exact ⟨hcg.ready (r5 hmu T hT).1 (hK _ (hTmem c hmu T hT)), hcg.holds (r5 hmu T hT).2 (hK _ (hTmem c hmu T hT))⟩
    · rintro ⟨p, i⟩ hc
      have hpi := (hmem _).1 hc
      have hp : p ∈ o.params := List.mem_of_getElem? hpi
      refine ⟨hr _ (List.mem_flatMap.2 ⟨p, hp, by simp⟩), hr _ (List.mem_flatMap.2 ⟨p, hp, by simp⟩), (hh p hp).1, (hh p hp).2, fun hmu T hT => ?_⟩
      exact hs hmu (p, T) (zip_get.2 ⟨i, hpi, hT⟩)

/-- The constructor accepts every list of parameters of different identities and makes a fitting optimizer whose tensors, if any, have new identities. -/
theorem C41_init {params : List Moments} (hp : OptFits params []) (hw : ∀ p ∈ params, p.value.WF) {next : Nat} (hb : ∀ T ∈ paramTensors params, T.id < next)
    (lr momentum weightDecay damping : ℝ) (nesterov : Bool) :
    ∃ o, SGD.init params lr next momentum nesterov weightDecay damping = .ok o ∧ o.Fits ∧ o.params = params ∧
      o.toNet.rule = sgdRule lr momentum weightDecay damping nesterov ∧ ∀ T ∈ o.toNet.tensors, T.WF ∧ next ≤ T.id := by
  by_cases hmu : 0 < momentum
  · have hm : FP.ltb 0 momentum = true := decide_eq_true hmu
    refine ⟨⟨params, nesterov, lr, momentum, weightDecay, damping, freshFor params fun i => next + i⟩, ?_, ?_, rfl, rfl, ?_⟩
    · simp only [SGD.init, hm, if_true, newStates_ok hw, M.bind_ok]
    · show OptFits params (if 0 < momentum then _ else _)
      rw [if_pos hmu]
      exact hp.fresh hb [fun i => next + i] (by simp) (by simp [Function.Injective]) (by simp)
    · intro T hT
      change T ∈ (if 0 < momentum then _ else _) at hT
      rw [if_pos hmu] at hT
      obtain ⟨i, hi⟩ := List.mem_iff_getElem?.1 hT
      obtain ⟨p, hp, rfl⟩ := freshFor_get.1 hi
      exact ⟨hw p (List.mem_of_getElem? hp), Nat.le_add_right _ _⟩
  · have hm : FP.ltb 0 momentum = false := decide_eq_false hmu
    refine ⟨⟨params, nesterov, lr, momentum, weightDecay, damping, []⟩, ?_, ?_, rfl, rfl, ?_⟩
    · simp only [SGD.init, hm, Bool.false_eq_true, if_false, M.bind_ok]
    · show OptFits params (if 0 < momentum then _ else _)
      rw [if_neg hmu]
      exact hp
    · intro T hT
      change T ∈ (if 0 < momentum then _ else _) at hT
      rw [if_neg hmu] at hT
      cases hT

/-! ### Non-vacuity -/

/-- Two parameters, a matrix in four tiles and a vector in two tiles. -/
def optExampleParams : List Moments := [⟨⟨0, [4, 3], [2, 2]⟩, ⟨1, [4, 3], [2, 2]⟩, true⟩, ⟨⟨2, [5], [3]⟩, ⟨3, [5], [3]⟩, true⟩]

theorem optExample_fits : OptFits optExampleParams [] ∧ (∀ p ∈ optExampleParams, p.value.WF) ∧ ∀ T ∈ paramTensors optExampleParams, T.id < 4 := by
  refine ⟨⟨by decide, by simp [optExampleParams], by simp, by simp⟩, ?_, ?_⟩
  · simp [optExampleParams, Tensor.WF]
  · simp [optExampleParams, paramTensors]

/-- With momentum the optimizer gets two tensors, numbered 4 and 5. -/
example : ∃ o : SGD ℝ, SGD.init optExampleParams (1/10 : ℝ) 4 (9/10) true (1/100) 0 = .ok o ∧ o.Fits ∧ o.toNet.Correct ∧
    o.states.map Tensor.id = [4, 5] := by
  obtain ⟨h1, h2, h3⟩ := optExample_fits
  obtain ⟨o, e, f, -⟩ := C41_init h1 h2 h3 (1/10) (9/10) (1/100) 0 true
  refine ⟨o, e, f, C41_sgd f, ?_⟩
  have hm : FP.ltb (0 : ℝ) (9/10) = true := decide_eq_true (by norm_num)
  simp only [SGD.init, hm, if_true, newStates_ok h2, M.bind_ok, Except.ok.injEq] at e
  subst e
  rfl

/-- There are stores in which the values and gradients of these parameters are defined and the optimizer's tensors are allocated, so that the first step can be made. -/
example (θ g : Env) : ∃ (o : SGD ℝ) (s : Store ℝ), 0 < o.momentum ∧ o.params = optExampleParams ∧ o.Fits ∧ AllReady (paramTensors o.params) s ∧ AllReady o.toNet.tensors s ∧
    ∀ p ∈ o.params, p.value.Holds s (θ p.value.id) ∧ p.grad.Holds s (g p.value.id) := by
  refine ⟨⟨optExampleParams, true, 1/10, 9/10, 1/100, 0, [⟨4, [4, 3], [2, 2]⟩, ⟨5, [5], [3]⟩]⟩,
    storeOf [(⟨0, [4, 3], [2, 2]⟩, θ 0), (⟨1, [4, 3], [2, 2]⟩, g 0), (⟨2, [5], [3]⟩, θ 2), (⟨3, [5], [3]⟩, g 2), (⟨4, [4, 3], [2, 2]⟩, g 0), (⟨5, [5], [3]⟩, g 2)], ?_, rfl, ?_, ?_⟩
  · norm_num
  · show OptFits _ (if (0 : ℝ) < 9/10 then _ else _)
    rw [if_pos (by norm_num)]
    exact ⟨by decide, by simp [optExampleParams], by simp [optExampleParams], by simp [optExampleParams]; rintro a b (⟨rfl, rfl⟩ | ⟨rfl, rfl⟩) <;> exact ⟨rfl, rfl⟩⟩
  · have h := storeOf_spec (α := ℝ) [(⟨0, [4, 3], [2, 2]⟩, θ 0), (⟨1, [4, 3], [2, 2]⟩, g 0), (⟨2, [5], [3]⟩, θ 2), (⟨3, [5], [3]⟩, g 2),
      (⟨4, [4, 3], [2, 2]⟩, g 0), (⟨5, [5], [3]⟩, g 2)] (by simp [Tensor.WF]) (by simp)
    generalize storeOf _ = s at h ⊢
    simp only [List.forall_mem_cons, List.not_mem_nil, IsEmpty.forall_iff, implies_true, and_true] at h
    obtain ⟨h0, h1, h2, h3, h4, h5⟩ := h
    refine ⟨?_, ?_, ?_⟩
    · simp only [AllReady, paramTensors, optExampleParams, List.flatMap_cons, List.flatMap_nil, List.cons_append, List.nil_append, List.append_nil, List.forall_mem_cons,
        List.not_mem_nil, IsEmpty.forall_iff, implies_true, and_true]
      exact ⟨h0.1, h1.1, h2.1, h3.1⟩
    · have : (0 : ℝ) < 9/10 := by norm_num
      simp only [AllReady, SGD.toNet, if_pos this, List.forall_mem_cons, List.not_mem_nil, IsEmpty.forall_iff, implies_true, and_true]
      exact ⟨h4.1, h5.1⟩
    · simp only [optExampleParams, List.forall_mem_cons, List.not_mem_nil, IsEmpty.forall_iff, implies_true, and_true]
      exact ⟨⟨h0.2, h1.2⟩, h2.2, h3.2⟩

end NNTile
