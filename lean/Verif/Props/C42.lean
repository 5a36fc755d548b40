import Verif.Lib.OptimSteps
import Verif.Lib.Store
import Verif.Lib.Adam
import Verif.Props.C11
import Verif.Props.C11Axpy
import Verif.Props.C41
import Mathlib.Tactic.FinCases
import Mathlib.Tactic.FieldSimp
import Mathlib.Tactic.Linarith
/-!
# C42: the optimizers Adam, FusedAdam and FusedAdamW
-/
namespace NNTile

/-- One number: what the kernels compute is what the rules prescribe. -/
private theorem elem_real {h : AdamParams} (hv : h.Valid) {prep : ℝ → ℝ → ℝ × ℝ} {k : ℕ} {lr θ g m v : ℝ} (hn : 0 ≤ v) (h0 : k = 0 → m = 0 ∧ v = 0) :
    adamElem prep ((k + 1 : ℕ) : Int) h.beta_1 h.beta_2 h.eps lr g m (Real.sqrt v) θ =
      (h.beta_1 * m + (1 - h.beta_1) * (prep θ g).2, Real.sqrt (h.beta_2 * v + (1 - h.beta_2) * (prep θ g).2 ^ 2),
        (prep θ g).1 - adamUpdate { h with lr := lr } (k + 1) (h.beta_1 * m + (1 - h.beta_1) * (prep θ g).2)
          (h.beta_2 * v + (1 - h.beta_2) * (prep θ g).2 ^ 2)) := by
  have b0 := hv.beta_2_nonneg
  have b1 := hv.beta_2_lt
  have hw : 0 ≤ h.beta_2 * v + (1 - h.beta_2) * (prep θ g).2 ^ 2 :=
    add_nonneg (mul_nonneg b0 hn) (mul_nonneg (by linarith) (sq_nonneg _))
  have e1 : (adamElem prep ((k + 1 : ℕ) : Int) h.beta_1 h.beta_2 h.eps lr g m (Real.sqrt v) θ).1 = h.beta_1 * m + (1 - h.beta_1) * (prep θ g).2 := by
    by_cases hk : k = 0
    · subst hk
      simp [adamElem, (h0 rfl).1]
    · have : ((k + 1 : ℕ) : Int) ≠ 1 := by omega
      simp only [adamElem, this, if_false]
  have e2 : (adamElem prep ((k + 1 : ℕ) : Int) h.beta_1 h.beta_2 h.eps lr g m (Real.sqrt v) θ).2.1
      = Real.sqrt (h.beta_2 * v + (1 - h.beta_2) * (prep θ g).2 ^ 2) := by
    by_cases hk : k = 0
    · subst hk
      have : ((0 + 1 : ℕ) : Int) = 1 := rfl
      simp only [adamElem, this, if_true]
      show Real.sqrt (1 - h.beta_2) * |_| = _
      rw [(h0 rfl).2, mul_zero, zero_add, Real.sqrt_mul (by linarith), Real.sqrt_sq_eq_abs]
    · have : ((k + 1 : ℕ) : Int) ≠ 1 := by omega
      simp only [adamElem, this, if_false]
      show Real.sqrt ((Real.sqrt h.beta_2 * Real.sqrt v) ^ 2 + (Real.sqrt (1 - h.beta_2) * _) ^ 2) = _
      rw [mul_pow, mul_pow, Real.sq_sqrt b0, Real.sq_sqrt hn, Real.sq_sqrt (by linarith)]
  have e3 : (adamElem prep ((k + 1 : ℕ) : Int) h.beta_1 h.beta_2 h.eps lr g m (Real.sqrt v) θ).2.2
      = (prep θ g).1 - lr / (1 - h.beta_1 ^ (((k + 1 : ℕ) : Int) : ℝ)) * (adamElem prep ((k + 1 : ℕ) : Int) h.beta_1 h.beta_2 h.eps lr g m (Real.sqrt v) θ).1
        / ((adamElem prep ((k + 1 : ℕ) : Int) h.beta_1 h.beta_2 h.eps lr g m (Real.sqrt v) θ).2.1 * (1 / Real.sqrt (1 - h.beta_2 ^ (((k + 1 : ℕ) : Int) : ℝ))) + h.eps) := rfl
  rw [e1, e2] at e3
  refine Prod.ext e1 (Prod.ext e2 (e3.trans ?_))
  have e : (((k + 1 : ℕ) : Int) : ℝ) = ((k + 1 : ℕ) : ℝ) := by norm_cast
  simp only [adamUpdate]
  rw [e, Real.rpow_natCast, Real.rpow_natCast, Real.sqrt_div hw, mul_one_div]
  congr 2
  ring

/-- The moments of one parameter. -/
private def Slot (first second : List Tensor) (k : Nat) (c : Moments × Nat) (a : List Nat → ℝ × ℝ) (s : Store ℝ) : Prop :=
  ∀ (m v : Tensor), first[c.2]? = some m → second[c.2]? = some v → m.Ready s ∧ v.Ready s ∧
    (∀ J, 0 ≤ (a J).2) ∧ (k = 0 → ∀ J, a J = (0, 0)) ∧ (k ≠ 0 → m.Holds s (fun J => (a J).1) ∧ v.Holds s (fun J => Real.sqrt (a J).2))

private theorem slot_keep {first second : List Tensor} {k : Nat} (c : Moments × Nat) (a : List Nat → ℝ × ℝ) (s s' : Store ℝ) (K : List Nat)
    (hK : ∀ i ∈ slotIds [first, second] c, i ∉ K) (hc : OnlyChanged K s s') (h : Slot first second k c a s) : Slot first second k c a s' := by
  intro m v hm hv
  obtain ⟨h1, h2, h3, h4, h5⟩ := h m v hm hv
  have k1 : m.id ∉ K := hK _ (mem_slotIds.2 (.inr (.inr ⟨first, by simp, m, hm, rfl⟩)))
  have k2 : v.id ∉ K := hK _ (mem_slotIds.2 (.inr (.inr ⟨second, by simp, v, hv, rfl⟩)))
  exact ⟨hc.ready h1 k1, hc.ready h2 k2, h3, h4, fun hk => ⟨hc.holds (h5 hk).1 k1, hc.holds (h5 hk).2 k2⟩⟩

private theorem saved_keep {params : List Moments} {first second : List Tensor} {k : Nat} {a : Nat → List Nat → ℝ × ℝ} {s s' : Store ℝ} {ids : List Nat}
    (hc : OnlyChanged ids s s') (hT : ∀ T ∈ first ++ second, T.id ∉ ids) (h : MomentsSaved params first second k a s) : MomentsSaved params first second k a s' := by
  intro i p m v hp hm hv
  obtain ⟨h1, h2, h3, h4, h5⟩ := h i p m v hp hm hv
  have k1 : m.id ∉ ids := hT m (List.mem_append_left _ (List.mem_of_getElem? hm))
  have k2 : v.id ∉ ids := hT v (List.mem_append_right _ (List.mem_of_getElem? hv))
  exact ⟨hc.ready h1 k1, hc.ready h2 k2, h3, h4, fun hk => ⟨hc.holds (h5 hk).1 k1, hc.holds (h5 hk).2 k2⟩⟩

private theorem saved_init {params : List Moments} {first second : List Tensor} {s : Store ℝ} (h : AllReady (first ++ second) s) :
    MomentsSaved params first second 0 (fun _ _ => (0, 0)) s := fun _ _ m v _ hm hv =>
  ⟨h m (List.mem_append_left _ (List.mem_of_getElem? hm)), h v (List.mem_append_right _ (List.mem_of_getElem? hv)), fun _ => le_refl _, fun _ _ => rfl,
    fun h => absurd rfl h⟩

private theorem slot_of {fit : OptFits params [first, second]} {i : Nat} {p : Moments} (hp : params[i]? = some p) {k : Nat} {a : List Nat → ℝ × ℝ} {s : Store ℝ}
    (h : Slot first second k (p, i) a s) : ∃ m v, first[i]? = some m ∧ second[i]? = some v ∧ m.shape = p.value.shape ∧ m.basetile = p.value.basetile ∧
      v.shape = p.value.shape ∧ v.basetile = p.value.basetile ∧ [p.value.id, p.grad.id, m.id, v.id].Nodup ∧ slotIds [first, second] (p, i) = [p.value.id, p.grad.id, m.id, v.id] ∧
      m.Ready s ∧ v.Ready s ∧ (∀ J, 0 ≤ (a J).2) ∧ (k = 0 → ∀ J, a J = (0, 0)) ∧ (k ≠ 0 → m.Holds s (fun J => (a J).1) ∧ v.Holds s (fun J => Real.sqrt (a J).2)) := by
  obtain ⟨m, hm, m1, m2⟩ := fit.get (l := first) (by simp) hp
  obtain ⟨v, hv, v1, v2⟩ := fit.get (l := second) (by simp) hp
  have e : slotIds [first, second] (p, i) = [p.value.id, p.grad.id, m.id, v.id] := by simp [slotIds, hm, hv]
  have hn := fit.slot_nodup hp
  rw [e] at hn
  exact ⟨m, v, hm, hv, m1, m2, v1, v2, hn, e, h m v hm hv⟩

private theorem invalidate_run {T : Tensor} {s : Store ℝ} (h : T.Ready s) (en : Bool) : Runs (invalidateAsync en T) s [T.id] (fun s' => T.Ready s') := by
  have h0 : St (fun _ : Unit => T) s (fun _ => none) := ⟨fun _ => h, fun _ _ hv => by cases hv⟩
  have := h0.invalidate (fun _ _ _ => rfl) () en (ps := []) (ids := [T.id]) (P := fun s' => T.Ready s') (by simp) (fun s' h' => Runs.nil (h'.ready ()))
  obtain ⟨t, s', e, e2, e3, e4⟩ := this
  cases hI : invalidateAsync en T (α := ℝ) with
  | error x => rw [hI] at e; simp [seqAsync, bind, Except.bind] at e
  | ok t' =>
    rw [hI] at e
    simp only [seqAsync, M.bind_ok, List.append_nil] at e
    cases e
    exact ⟨_, s', rfl, e2, e3, e4⟩

/-- The fused optimizers. -/
private theorem fused_correct {o : Fused ℝ} (fit : o.Fits) (hv : o.hyper.Valid) (invalidate : Bool) {codelet : String} {kernel : AdamKernel ℝ}
    {prep : ℝ → ℝ → ℝ → ℝ × ℝ} (hk : ∀ num_iter lr n g b, kernel num_iter n o.beta1 o.beta2 o.eps lr o.weightDecay g b = adamLoop (prep lr) num_iter n o.beta1 o.beta2 o.eps lr g b)
    (step : ℕ → ℝ → ℝ → ℝ × ℝ → ℝ × ℝ × ℝ)
    (hstep : ∀ k θ g a, step k θ g a =
      ((prep (o.schedule (k + 1)) θ g).1 - adamUpdate { o.hyper with lr := o.schedule (k + 1) } (k + 1)
          (o.beta1 * a.1 + (1 - o.beta1) * (prep (o.schedule (k + 1)) θ g).2) (o.beta2 * a.2 + (1 - o.beta2) * (prep (o.schedule (k + 1)) θ g).2 ^ 2),
        o.beta1 * a.1 + (1 - o.beta1) * (prep (o.schedule (k + 1)) θ g).2, o.beta2 * a.2 + (1 - o.beta2) * (prep (o.schedule (k + 1)) θ g).2 ^ 2)) :
    NetOpt.Correct ⟨o.params, o.firstMoments ++ o.secondMoments, fun k => o.step (adamTensor codelet kernel) invalidate (k + 1 : Nat), ⟨ℝ × ℝ, (0, 0), step⟩,
      MomentsSaved o.params o.firstMoments o.secondMoments⟩ := by
  refine ⟨fun k a s s' ids hc hT h => saved_keep hc hT h, fun s h => saved_init h, ?_⟩
  intro k s θ g (a : Nat → List Nat → ℝ × ℝ) hr hh hs
  change ∀ p ∈ o.params, _ at hh
  have hlr : o.curLr (k + 1 : Nat) = o.schedule (k + 1) := by
    rw [Fused.curLr, Fused.schedule]
    cases o.warmup with
    | none => rfl
    | some w =>
      obtain ⟨st, full⟩ := w
      simp only [warmupLr]
      by_cases h1 : ((k + 1 : ℕ) : Int) < full ∧ full > 1
      · rw [if_pos h1, if_pos (by omega)]
        have e1 : ((full.toNat : ℕ) : ℝ) = (full : ℝ) := by
          have : ((full.toNat : ℕ) : Int) = full := by omega
          exact_mod_cast this
        show (o.lr - st) / ((full - 1 : Int) : ℝ) * ((((k + 1 : ℕ) : Int) - 1 : Int) : ℝ) + st = _
        rw [e1]
        push_cast
        ring
      · rw [if_neg h1, if_neg (by omega)]
  have key := opt_loop (rule := ⟨ℝ × ℝ, (0, 0), step⟩) fit k
    (fun p i => do
      let m ← pyTensor o.firstMoments i
      let v ← pyTensor o.secondMoments i
      seqTasks [adamTensor codelet kernel (k + 1 : Nat) o.beta1 o.beta2 o.eps (o.curLr (k + 1 : Nat)) o.weightDecay p.grad m v p.value, liftTasks (invalidateAsync invalidate p.grad)])
    (Slot o.firstMoments o.secondMoments k) (Slot o.firstMoments o.secondMoments (k + 1)) slot_keep slot_keep ?_ s θ g a hr hh
    (fun i p hp m v hm hv => hs i p m v hp hm hv)
  · refine key.imp (fun i hi => by simpa using hi) fun s' _ h => ?_
    exact ⟨h.1, h.2.1, fun i p m v hp hm hv => h.2.2 i p hp m v hm hv⟩
  · intro p i hp s θ g a r1 r2 r3 r4 hs
    obtain ⟨m, v, hm, hv2, m1, m2, v1, v2, hn, hsl, q1, q2, q3, q4, q5⟩ := slot_of (fit := fit) hp hs
    have hg := fit.grad p (List.mem_of_getElem? hp)
    simp only [List.nodup_cons, List.mem_cons, List.not_mem_nil, or_false, not_or, not_false_eq_true, and_true, List.nodup_nil] at hn
    obtain ⟨⟨n1, n2, n3⟩, ⟨n4, n5⟩, n6⟩ := hn
    have af : AdamFit p.grad m v p.value := ⟨⟨Ne.symm n1, hg⟩, ⟨Ne.symm n2, m1, m2⟩, ⟨Ne.symm n3, v1, v2⟩, n4, n5, n6⟩
    have pm : pyTensor o.firstMoments i = .ok m := by rw [pyTensor, hm]
    have pv : pyTensor o.secondMoments i = .ok v := by rw [pyTensor, hv2]
    simp only [pm, pv, M.bind_ok]
    obtain ⟨tasks, s1, e1, e2, e3, e4, e5, e6, e7, e8, e9⟩ := adamTensor_run (codelet := codelet) (num_iter := ((k + 1 : ℕ) : Int)) (hk _ (o.curLr (k + 1 : Nat))) af r2 q1 q2 r1 r4 r3
      (xm := fun J => (a J).1) (xv := fun J => Real.sqrt (a J).2) (fun h => (q5 (by omega)).1) (fun h => (q5 (by omega)).2)
    have el : ∀ J, adamElem (prep (o.curLr (k + 1 : Nat))) ((k + 1 : ℕ) : Int) o.beta1 o.beta2 o.eps (o.curLr (k + 1 : Nat)) (g J) (a J).1 (Real.sqrt (a J).2) (θ J)
        = ((step k (θ J) (g J) (a J)).2.1, Real.sqrt (step k (θ J) (g J) (a J)).2.2, (step k (θ J) (g J) (a J)).1) := by
      intro J
      rw [hstep, hlr]
      exact elem_real hv (prep := prep (o.schedule (k + 1))) (q3 J) (fun h => by rw [q4 h J]; exact ⟨rfl, rfl⟩)
    simp only [el] at e3 e4 e5
    rw [hsl]
    refine RunsT.cons (Q := fun s1 => p.value.Ready s1 ∧ p.grad.Ready s1 ∧ m.Ready s1 ∧ v.Ready s1 ∧ p.value.Holds s1 (fun J => (step k (θ J) (g J) (a J)).1) ∧
        m.Holds s1 (fun J => (step k (θ J) (g J) (a J)).2.1) ∧ v.Holds s1 (fun J => Real.sqrt (step k (θ J) (g J) (a J)).2.2))
      ⟨tasks, s1, e1, e2, e6.mono (by simp), e9, e6.ready r2 (by simp [n4, n5, Ne.symm n1]), e7, e8, e5, e3, e4⟩ ?_
    rintro s2 - ⟨t1, t2, t3, t4, t5, t6, t7⟩
    refine (invalidate_run t2 invalidate).lift.cons' (by simp) fun s3 c3 t8 => RunsT.nil ?_
    have d : ∀ {T : Tensor}, T.id ≠ p.grad.id → T.id ∉ [p.grad.id] := fun h => by simpa using h
    refine ⟨c3.ready t1 (d n1), t8, c3.holds t5 (d n1), fun m' v' hm' hv' => ?_⟩
    rw [hm] at hm'
    rw [hv2] at hv'
    cases hm'
    cases hv'
    refine ⟨c3.ready t3 (d (Ne.symm n4)), c3.ready t4 (d (Ne.symm n5)), fun J => ?_, by omega, fun _ => ⟨c3.holds t6 (d (Ne.symm n4)), c3.holds t7 (d (Ne.symm n5))⟩⟩
    show 0 ≤ (step k (θ J) (g J) (a J)).2.2
    rw [hstep]
    have b0 := hv.beta_2_nonneg
    have b1 := hv.beta_2_lt
    change 0 ≤ o.beta2 at b0
    change o.beta2 < 1 at b1
    exact add_nonneg (mul_nonneg b0 (q3 J)) (mul_nonneg (by linarith) (sq_nonneg _))

/-- **FusedAdam** follows Adam, with L2 regularisation added to the gradients and a learning rate that is constant or grows linearly during a warmup. -/
theorem C42_fused_adam {o : Fused ℝ} (fit : o.Fits) (hv : o.hyper.Valid) (invalidate : Bool) : (o.toNetAdam invalidate).Correct := by
  refine fused_correct fit hv invalidate (codelet := "adam_step") (kernel := adamKernel)
    (prep := fun _ p_val grad_val => if FP.eqb o.weightDecay 0 then (p_val, grad_val) else (p_val, grad_val + o.weightDecay * p_val)) (fun _ _ _ _ _ => rfl) _ ?_
  intro k θ g a
  by_cases hw : o.weightDecay = 0
  · simp [adamRule, Fused.hyper, hw]
  · simp [adamRule, Fused.hyper, hw]

/-- **FusedAdamW** follows AdamW. -/
theorem C42_fused_adamw {o : Fused ℝ} (fit : o.Fits) (hv : o.hyper.Valid) (invalidate : Bool) : (o.toNetAdamW invalidate).Correct := by
  refine fused_correct fit hv invalidate (codelet := "adamw_step") (kernel := adamwKernel)
    (prep := fun lr p_val grad_val => if FP.eqb o.weightDecay 0 then (p_val, grad_val) else (p_val * (1 - lr * o.weightDecay), grad_val)) (fun _ _ _ _ _ => rfl) _ ?_
  intro k θ g a
  by_cases hw : o.weightDecay = 0
  · simp [adamwRule, Fused.hyper, hw]
  · simp [adamwRule, Fused.hyper, hw]
    ring

/-- **Adam** without `amsgrad` follows Adam. -/
theorem C42_adam {o : Adam ℝ} (fit : o.Fits) (hv : o.hyper.Valid) (hams : o.amsgrad = false) : o.toNet.Correct := by
  have fit' : OptFits o.params [o.firstMoments, o.secondMoments] := by simpa [Adam.Fits, hams] using fit
  refine ⟨fun k a s s' ids hc hT h => saved_keep hc hT h, fun s h => saved_init h, ?_⟩
  intro k s θ g (a : Nat → List Nat → ℝ × ℝ) hr hh hs
  change ∀ p ∈ o.params, _ at hh
  change RunsT (liftTasks (o.stepAsync (k + 1))) s _ _
  rw [Adam.stepAsync, liftTasks_seq, List.map_map]
  have key := opt_loop (rule := o.toNet.rule) fit' k (fun p i => liftTasks (o.stepParam (k + 1) p i))
    (Slot o.firstMoments o.secondMoments k) (Slot o.firstMoments o.secondMoments (k + 1)) slot_keep slot_keep ?_ s θ g a hr hh
    (fun i p hp m v hm hv => hs i p m v hp hm hv)
  · refine key.imp (fun i hi => by simpa [Adam.toNet] using hi) fun s' _ h => ?_
    exact ⟨h.1, h.2.1, fun i p m v hp hm hv => h.2.2 i p hp m v hm hv⟩
  · intro p i hp s θ g (a : List Nat → ℝ × ℝ) r1 r2 r3 r4 hs
    obtain ⟨m, v, hm, hv2, m1, m2, v1, v2, hn, hsl, q1, q2, q3, q4, q5⟩ := slot_of (fit := fit') hp hs
    have hg := fit'.grad p (List.mem_of_getElem? hp)
    let L : List Tensor := [p.value, p.grad, m, v]
    have inj := get_id_injective (L := L) hn
    have hn' := hn
    simp only [List.nodup_cons, List.mem_cons, List.not_mem_nil, or_false, not_or, not_false_eq_true, and_true, List.nodup_nil] at hn'
    obtain ⟨⟨n1, n2, n3⟩, ⟨n4, n5⟩, n6⟩ := hn'
    have lgm : p.grad.Like m := ⟨n4, hg.1.trans m1.symm, hg.2.trans m2.symm⟩
    have lgv : p.grad.Like v := ⟨n5, hg.1.trans v1.symm, hg.2.trans v2.symm⟩
    have lmp : m.Like p.value := ⟨Ne.symm n2, m1, m2⟩
    have lvp : v.Like p.value := ⟨Ne.symm n3, v1, v2⟩
    have b10 := hv.beta_1_nonneg
    have b11 := hv.beta_1_lt
    have b20 := hv.beta_2_nonneg
    have b21 := hv.beta_2_lt
    change o.beta1 < 1 at b11
    change 0 ≤ o.beta2 at b20
    change o.beta2 < 1 at b21
    have pm : pyTensor o.firstMoments i = .ok m := by rw [pyTensor, hm]
    have pv : pyTensor o.secondMoments i = .ok v := by rw [pyTensor, hv2]
    have h0 : St L.get s (fun j : Fin 4 => (![some θ, some g, if k = 0 then none else some (fun J => (a J).1), if k = 0 then none else some (fun J => Real.sqrt (a J).2)] : Fin 4 → _) j) :=
      ⟨fun j => by fin_cases j; exacts [r1, r2, q1, q2], fun j w hw => by
        by_cases hk : k = 0
        · subst hk
          fin_cases j
          · cases hw; exact r3
          · cases hw; exact r4
          · cases hw
          · cases hw
        · simp only [hk, if_false] at hw
          fin_cases j
          · cases hw; exact r3
          · cases hw; exact r4
          · cases hw; exact (q5 hk).1
          · cases hw; exact (q5 hk).2⟩
    rw [hsl]
    refine Runs.lift ?_
    rw [Adam.stepParam]
    simp only [pm, pv, M.bind_ok, hams, Bool.false_eq_true, and_false, if_false]
    refine h0.step inj (i := (1 : Fin 4)) (decay_computes n1 hg r1 r2 r3 r4) (by simp [L]) fun s1 h1 => ?_
    refine h1.step inj (i := (2 : Fin 4)) (first_moment_computes b11 (k := k) lgm (h1.ready (1 : Fin 4)) (h1.ready (2 : Fin 4)) (a := fun J => (a J).1) (h1.hold (1 : Fin 4) _ rfl)
      (fun h J => by rw [q4 h J]) (fun h => h1.hold (2 : Fin 4) _ (by simp [Function.update, h]))) (by simp [L]) fun s2 h2 => ?_
    refine h2.step inj (i := (3 : Fin 4)) (clear_first_computes (k := k) (h2.ready (3 : Fin 4)) (b := fun J => (a J).2)
      (fun h J => by rw [q4 h J]) (fun h => h2.hold (3 : Fin 4) _ (by simp [Function.update, h]))) (by simp [L]) fun s3 h3 => ?_
    simp only [whenAsync, decide_false, Bool.false_eq_true, if_false]
    refine (Runs.skip (P := fun s' => s' = s3) rfl).cons fun s4 _ e4 => ?_
    subst e4
    refine h3.step inj (i := (3 : Fin 4)) (second_moment_computes b20 b21 lgv (h3.ready (1 : Fin 4)) (h3.ready (3 : Fin 4)) (h3.hold (1 : Fin 4) _ rfl) q3 (h3.hold (3 : Fin 4) _ rfl))
      (by simp [L]) fun s5 h5 => ?_
    refine h5.step inj (i := (0 : Fin 4)) (C11_addcdiv_partial (h5.ready (2 : Fin 4)) (h5.ready (3 : Fin 4)) (h5.ready (0 : Fin 4)) lmp lvp _ _ _ _ _ (h5.hold (2 : Fin 4) _ rfl)
      (h5.hold (3 : Fin 4) _ rfl) (h5.hold (0 : Fin 4) _ rfl)) (by simp [L]) fun s6 h6 => ?_
    have hw : ∀ J, 0 ≤ o.beta2 * (a J).2 + (1 - o.beta2) * (g J + o.weightDecay * θ J) ^ 2 := fun J =>
      add_nonneg (mul_nonneg b20 (q3 J)) (mul_nonneg (by linarith) (sq_nonneg _))
    refine Runs.nil ⟨h6.ready (0 : Fin 4), h6.ready (1 : Fin 4), fun J hJ => ?_, fun m' v' hm' hv' => ?_⟩
    · refine (h6.hold (0 : Fin 4) _ rfl J hJ).trans (congrArg some ?_)
      exact adam_update_real hv k o.lr (hw J)
    · rw [hm] at hm'
      rw [hv2] at hv'
      cases hm'
      cases hv'
      exact ⟨h6.ready (2 : Fin 4), h6.ready (3 : Fin 4), hw, by omega, fun _ => ⟨h6.hold (2 : Fin 4) _ rfl, h6.hold (3 : Fin 4) _ rfl⟩⟩

/-- The constructors of the fused optimizers accept every list of parameters of different identities and make optimizers with new tensors that fit. -/
theorem C42_fused_init {params : List Moments} (hp : OptFits params []) (hw : ∀ p ∈ params, p.value.WF) {next : Nat} (hb : ∀ T ∈ paramTensors params, T.id < next)
    (lr beta1 beta2 weightDecay eps : ℝ) (warmup : Option (ℝ × Int)) :
    ∃ o, Fused.init params lr next beta1 beta2 weightDecay eps warmup = .ok o ∧ o.Fits ∧ o.params = params ∧
      o.hyper = ⟨beta1, beta2, eps, lr, weightDecay⟩ ∧ o.warmup = warmup ∧ ∀ T ∈ o.firstMoments ++ o.secondMoments, T.WF ∧ next ≤ T.id := by
  refine ⟨⟨params, freshFor params fun i => next + 2 * i, freshFor params fun i => next + 1 + 2 * i, lr, warmup, beta1, beta2, weightDecay, eps⟩, ?_, ?_, rfl, rfl, rfl, ?_⟩
  · simp only [Fused.init, newMoments_ok hw, M.bind_ok]
  · refine hp.fresh hb [fun i => next + 2 * i, fun i => next + 1 + 2 * i] ?_ ?_ ?_
    · simp only [List.forall_mem_cons, List.not_mem_nil, IsEmpty.forall_iff, implies_true, and_true]
      exact ⟨fun i => by omega, fun i => by omega⟩
    · simp only [List.forall_mem_cons, List.not_mem_nil, IsEmpty.forall_iff, implies_true, and_true]
      exact ⟨fun i j h => by simp only at h; omega, fun i j h => by simp only at h; omega⟩
    · simp only [List.pairwise_cons, List.forall_mem_cons, List.not_mem_nil, IsEmpty.forall_iff, implies_true, and_true, List.Pairwise.nil]
      exact fun i j => by omega
  · intro T hT
    rcases List.mem_append.1 hT with hT | hT
    · obtain ⟨i, hi⟩ := List.mem_iff_getElem?.1 hT
      obtain ⟨p, hp, rfl⟩ := freshFor_get.1 hi
      exact ⟨hw p (List.mem_of_getElem? hp), by simp only; omega⟩
    · obtain ⟨i, hi⟩ := List.mem_iff_getElem?.1 hT
      obtain ⟨p, hp, rfl⟩ := freshFor_get.1 hi
      exact ⟨hw p (List.mem_of_getElem? hp), by simp only; omega⟩

/-- The constructor of `Adam`. -/
theorem C42_adam_init {params : List Moments} (hp : OptFits params []) (hw : ∀ p ∈ params, p.value.WF) {next : Nat} (hb : ∀ T ∈ paramTensors params, T.id < next)
    (lr beta1 beta2 weightDecay eps : ℝ) (amsgrad : Bool) :
    ∃ o, Adam.init params lr next beta1 beta2 amsgrad weightDecay eps = .ok o ∧ o.Fits ∧ o.params = params ∧
      o.hyper = ⟨beta1, beta2, eps, lr, weightDecay⟩ ∧ o.amsgrad = amsgrad ∧ ∀ T ∈ o.firstMoments ++ (o.secondMoments ++ o.maxSecondMoments), T.WF ∧ next ≤ T.id := by
  refine ⟨⟨params, freshFor params fun i => next + 3 * i, freshFor params fun i => next + 1 + 3 * i, if amsgrad then freshFor params fun i => next + 2 + 3 * i else [],
    amsgrad, lr, beta1, beta2, weightDecay, eps⟩, ?_, ?_, rfl, rfl, rfl, ?_⟩
  · simp only [Adam.init, newMoments3_ok hw, M.bind_ok]
  · cases amsgrad with
    | false =>
      refine hp.fresh hb [fun i => next + 3 * i, fun i => next + 1 + 3 * i] ?_ ?_ ?_
      · simp only [List.forall_mem_cons, List.not_mem_nil, IsEmpty.forall_iff, implies_true, and_true]
        exact ⟨fun i => by omega, fun i => by omega⟩
      · simp only [List.forall_mem_cons, List.not_mem_nil, IsEmpty.forall_iff, implies_true, and_true]
        exact ⟨fun i j h => by simp only at h; omega, fun i j h => by simp only at h; omega⟩
      · simp only [List.pairwise_cons, List.forall_mem_cons, List.not_mem_nil, IsEmpty.forall_iff, implies_true, and_true, List.Pairwise.nil]
        exact fun i j => by omega
    | true =>
      refine hp.fresh hb [fun i => next + 3 * i, fun i => next + 1 + 3 * i, fun i => next + 2 + 3 * i] ?_ ?_ ?_
      · simp only [List.forall_mem_cons, List.not_mem_nil, IsEmpty.forall_iff, implies_true, and_true]
        exact ⟨fun i => by omega, fun i => by omega, fun i => by omega⟩
      · simp only [List.forall_mem_cons, List.not_mem_nil, IsEmpty.forall_iff, implies_true, and_true]
        exact ⟨fun i j h => by simp only at h; omega, fun i j h => by simp only at h; omega, fun i j h => by simp only at h; omega⟩
      · simp only [List.pairwise_cons, List.forall_mem_cons, List.not_mem_nil, IsEmpty.forall_iff, implies_true, and_true, List.Pairwise.nil]
        exact ⟨⟨fun i j => by omega, fun i j => by omega⟩, fun i j => by omega⟩
  · intro T hT
    have : ∀ f : Nat → Nat, (∀ i, next ≤ f i) → ∀ T ∈ freshFor params f, T.WF ∧ next ≤ T.id := by
      intro f hf T hT
      obtain ⟨i, hi⟩ := List.mem_iff_getElem?.1 hT
      obtain ⟨p, hp, rfl⟩ := freshFor_get.1 hi
      exact ⟨hw p (List.mem_of_getElem? hp), hf i⟩
    rcases List.mem_append.1 hT with hT | hT
    · exact this _ (fun i => by omega) T hT
    rcases List.mem_append.1 hT with hT | hT
    · exact this _ (fun i => by omega) T hT
    · cases amsgrad with
      | false => cases hT
      | true => exact this (fun i => next + 2 + 3 * i) (fun i => by omega) T hT

/-! ### Non-vacuity -/

private theorem usual_valid : (⟨9/10, 999/1000, 1/100000000, 1/1000, 1/100⟩ : AdamParams).Valid := by
  constructor <;> norm_num

/-- Each of the three optimizers, with the usual hyper-parameters, for the parameters of C41. -/
example (invalidate : Bool) : (∃ o : Adam ℝ, Adam.init optExampleParams (1/1000 : ℝ) 4 (9/10) (999/1000) false (1/100) (1/100000000) = .ok o ∧ o.toNet.Correct) ∧
    ∃ o : Fused ℝ, Fused.init optExampleParams (1/1000 : ℝ) 4 (9/10) (999/1000) (1/100) (1/100000000) (some (1/100000, 200)) = .ok o ∧
      (o.toNetAdam invalidate).Correct ∧ (o.toNetAdamW invalidate).Correct := by
  obtain ⟨h1, h2, h3⟩ := optExample_fits
  obtain ⟨o, e, f, -, g, ha, -⟩ := C42_adam_init h1 h2 h3 (1/1000) (9/10) (999/1000) (1/100) (1/100000000) false
  obtain ⟨o', e', f', -, g', -⟩ := C42_fused_init h1 h2 h3 (1/1000) (9/10) (999/1000) (1/100) (1/100000000) (some (1/100000, 200))
  exact ⟨⟨o, e, C42_adam f (g ▸ usual_valid) ha⟩, o', e', C42_fused_adam f' (g' ▸ usual_valid) _, C42_fused_adamw f' (g' ▸ usual_valid) _⟩

/-- Warmup: step 1 has the learning rate `start`, step `full` the final one, and the rate grows by equal amounts. -/
example (start lr : ℝ) : warmupLr start lr 11 1 = start ∧ warmupLr start lr 11 6 = (start + lr) / 2 ∧ warmupLr start lr 11 11 = lr := by
  simp only [warmupLr]
  norm_num
  ring

end NNTile
