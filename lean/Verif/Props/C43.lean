import Verif.Lib.OptimSteps
import Verif.Lib.Store
import Verif.Props.C42
import Mathlib.Tactic.FinCases
import Mathlib.Tactic.Linarith
/-!
# C43: Adam with amsgrad
-/
namespace NNTile

private def Slot (first second maxSecond : List Tensor) (k : Nat) (c : Moments × Nat) (a : List Nat → ℝ × ℝ × ℝ) (s : Store ℝ) : Prop :=
  ∀ (m v w : Tensor), first[c.2]? = some m → second[c.2]? = some v → maxSecond[c.2]? = some w → m.Ready s ∧ v.Ready s ∧ w.Ready s ∧
    (∀ J, 0 ≤ (a J).2.1 ∧ 0 ≤ (a J).2.2) ∧ (k = 0 → ∀ J, a J = (0, 0, 0)) ∧
    (k ≠ 0 → m.Holds s (fun J => (a J).1) ∧ v.Holds s (fun J => Real.sqrt (a J).2.1) ∧ w.Holds s (fun J => Real.sqrt (a J).2.2))

private theorem slot_keep {first second maxSecond : List Tensor} {k : Nat} (c : Moments × Nat) (a : List Nat → ℝ × ℝ × ℝ) (s s' : Store ℝ) (K : List Nat)
    (hK : ∀ i ∈ slotIds [first, second, maxSecond] c, i ∉ K) (hc : OnlyChanged K s s') (h : Slot first second maxSecond k c a s) : Slot first second maxSecond k c a s' := by
  intro m v w hm hv hw
  obtain ⟨h1, h2, h2', h3, h4, h5⟩ := h m v w hm hv hw
  have k1 : m.id ∉ K := hK _ (mem_slotIds.2 (.inr (.inr ⟨first, by simp, m, hm, rfl⟩)))
  have k2 : v.id ∉ K := hK _ (mem_slotIds.2 (.inr (.inr ⟨second, by simp, v, hv, rfl⟩)))
  have k3 : w.id ∉ K := hK _ (mem_slotIds.2 (.inr (.inr ⟨maxSecond, by simp, w, hw, rfl⟩)))
  exact ⟨hc.ready h1 k1, hc.ready h2 k2, hc.ready h2' k3, h3, h4, fun hk => ⟨hc.holds (h5 hk).1 k1, hc.holds (h5 hk).2.1 k2, hc.holds (h5 hk).2.2 k3⟩⟩

/-- **Adam with amsgrad** follows AMSGrad with the learning rate `lr / (1 - beta2^k)` in step `k`. Missing from the full property: the learning rate should be `lr`
(`C43_amsgrad_refuted`). -/
theorem C43_amsgrad_partial {o : Adam ℝ} (fit : o.Fits) (hv : o.hyper.Valid) (hams : o.amsgrad = true) :
    (o.toNetAmsgrad fun k => o.lr / (1 - o.beta2 ^ k)).Correct := by
  have fit' : OptFits o.params [o.firstMoments, o.secondMoments, o.maxSecondMoments] := by simpa [Adam.Fits, hams] using fit
  refine ⟨?_, ?_, ?_⟩
  · intro k a s s' ids hc hT h i p m v w hp hm hv hw
    obtain ⟨h1, h2, h2', h3, h4, h5⟩ := h i p m v w hp hm hv hw
    have hT' : ∀ T ∈ o.firstMoments ++ (o.secondMoments ++ o.maxSecondMoments), T.id ∉ ids := hT
    have k1 : m.id ∉ ids := hT' m (List.mem_append_left _ (List.mem_of_getElem? hm))
    have k2 : v.id ∉ ids := hT' v (List.mem_append_right _ (List.mem_append_left _ (List.mem_of_getElem? hv)))
    have k3 : w.id ∉ ids := hT' w (List.mem_append_right _ (List.mem_append_right _ (List.mem_of_getElem? hw)))
    exact ⟨hc.ready h1 k1, hc.ready h2 k2, hc.ready h2' k3, h3, h4, fun hk => ⟨hc.holds (h5 hk).1 k1, hc.holds (h5 hk).2.1 k2, hc.holds (h5 hk).2.2 k3⟩⟩
  · intro s h i p m v w hp hm hv hw
    have h' : ∀ T ∈ o.firstMoments ++ (o.secondMoments ++ o.maxSecondMoments), T.Ready s := h
    exact ⟨h' m (List.mem_append_left _ (List.mem_of_getElem? hm)), h' v (List.mem_append_right _ (List.mem_append_left _ (List.mem_of_getElem? hv))),
      h' w (List.mem_append_right _ (List.mem_append_right _ (List.mem_of_getElem? hw))), fun _ => ⟨le_refl _, le_refl _⟩, fun _ _ => rfl, fun h => absurd rfl h⟩
  intro k s θ g (a : Nat → List Nat → ℝ × ℝ × ℝ) hr hh hs
  change ∀ p ∈ o.params, _ at hh
  change RunsT (liftTasks (o.stepAsync (k + 1))) s _ _
  rw [Adam.stepAsync, liftTasks_seq, List.map_map]
  have key := opt_loop (rule := (o.toNetAmsgrad fun k => o.lr / (1 - o.beta2 ^ k)).rule) fit' k (fun p i => liftTasks (o.stepParam (k + 1) p i))
    (Slot o.firstMoments o.secondMoments o.maxSecondMoments k) (Slot o.firstMoments o.secondMoments o.maxSecondMoments (k + 1)) slot_keep slot_keep ?_ s θ g a hr hh
    (fun i p hp m v w hm hv hw => hs i p m v w hp hm hv hw)
  · refine key.imp (fun i hi => by simpa [Adam.toNetAmsgrad] using hi) fun s' _ h => ?_
    exact ⟨h.1, h.2.1, fun i p m v w hp hm hv hw => h.2.2 i p hp m v w hm hv hw⟩
  · intro p i hp s θ g (a : List Nat → ℝ × ℝ × ℝ) r1 r2 r3 r4 hs
    obtain ⟨m, hm, m1, m2⟩ := fit'.get (l := o.firstMoments) (by simp) hp
    obtain ⟨v, hv2, v1, v2⟩ := fit'.get (l := o.secondMoments) (by simp) hp
    obtain ⟨w, hw2, w1, w2⟩ := fit'.get (l := o.maxSecondMoments) (by simp) hp
    have hsl : slotIds [o.firstMoments, o.secondMoments, o.maxSecondMoments] (p, i) = [p.value.id, p.grad.id, m.id, v.id, w.id] := by simp [slotIds, hm, hv2, hw2]
    have hn := fit'.slot_nodup hp
    rw [hsl] at hn ⊢
    obtain ⟨q1, q2, q2', q3, q4, q5⟩ := hs m v w hm hv2 hw2
    have hg := fit'.grad p (List.mem_of_getElem? hp)
    let L : List Tensor := [p.value, p.grad, m, v, w]
    have inj := get_id_injective (L := L) hn
    simp only [List.nodup_cons, List.mem_cons, List.not_mem_nil, or_false, not_or, not_false_eq_true, and_true, List.nodup_nil] at hn
    obtain ⟨⟨n1, n2, n3, n4⟩, ⟨n5, n6, n7⟩, ⟨n8, n9⟩, n10⟩ := hn
    have lgm : p.grad.Like m := ⟨n5, hg.1.trans m1.symm, hg.2.trans m2.symm⟩
    have lgv : p.grad.Like v := ⟨n6, hg.1.trans v1.symm, hg.2.trans v2.symm⟩
    have lmp : m.Like p.value := ⟨Ne.symm n2, m1, m2⟩
    have lwp : w.Like p.value := ⟨Ne.symm n4, w1, w2⟩
    have lvw : v.Like w := ⟨n10, v1.trans w1.symm, v2.trans w2.symm⟩
    have b11 := hv.beta_1_lt
    have b20 := hv.beta_2_nonneg
    have b21 := hv.beta_2_lt
    change o.beta1 < 1 at b11
    change 0 ≤ o.beta2 at b20
    change o.beta2 < 1 at b21
    have pm : pyTensor o.firstMoments i = .ok m := by rw [pyTensor, hm]
    have pv : pyTensor o.secondMoments i = .ok v := by rw [pyTensor, hv2]
    have pw : pyTensor o.maxSecondMoments i = .ok w := by rw [pyTensor, hw2]
    have h0 : St L.get s (fun j : Fin 5 => (![some θ, some g, if k = 0 then none else some (fun J => (a J).1), if k = 0 then none else some (fun J => Real.sqrt (a J).2.1),
        if k = 0 then none else some (fun J => Real.sqrt (a J).2.2)] : Fin 5 → _) j) :=
      ⟨fun j => by fin_cases j; exacts [r1, r2, q1, q2, q2'], fun j u hu => by
        by_cases hk : k = 0
        · subst hk
          fin_cases j
          · cases hu; exact r3
          · cases hu; exact r4
          · cases hu
          · cases hu
          · cases hu
        · simp only [hk, if_false] at hu
          fin_cases j
          · cases hu; exact r3
          · cases hu; exact r4
          · cases hu; exact (q5 hk).1
          · cases hu; exact (q5 hk).2.1
          · cases hu; exact (q5 hk).2.2⟩
    refine Runs.lift ?_
    rw [Adam.stepParam]
    simp only [pm, pv, pw, M.bind_ok, hams, and_true, if_true]
    refine h0.step inj (i := (1 : Fin 5)) (decay_computes n1 hg r1 r2 r3 r4) (by simp [L]) fun s1 h1 => ?_
    refine h1.step inj (i := (2 : Fin 5)) (first_moment_computes b11 (k := k) lgm (h1.ready (1 : Fin 5)) (h1.ready (2 : Fin 5)) (a := fun J => (a J).1) (h1.hold (1 : Fin 5) _ rfl)
      (fun h J => by rw [q4 h J]) (fun h => h1.hold (2 : Fin 5) _ (by simp [Function.update, h]))) (by simp [L]) fun s2 h2 => ?_
    refine h2.step inj (i := (3 : Fin 5)) (clear_first_computes (k := k) (h2.ready (3 : Fin 5)) (b := fun J => (a J).2.1)
      (fun h J => by rw [q4 h J]) (fun h => h2.hold (3 : Fin 5) _ (by simp [Function.update, h]))) (by simp [L]) fun s3 h3 => ?_
    refine h3.step inj (i := (4 : Fin 5)) (clear_first_computes (k := k) (h3.ready (4 : Fin 5)) (b := fun J => (a J).2.2)
      (fun h J => by rw [q4 h J]) (fun h => h3.hold (4 : Fin 5) _ (by simp [Function.update, h]))) (by simp [L]) fun s4 h4 => ?_
    refine h4.step inj (i := (3 : Fin 5)) (second_moment_computes b20 b21 lgv (h4.ready (1 : Fin 5)) (h4.ready (3 : Fin 5)) (h4.hold (1 : Fin 5) _ rfl) (fun J => (q3 J).1)
      (h4.hold (3 : Fin 5) _ rfl)) (by simp [L]) fun s5 h5 => ?_
    have hw : ∀ J, 0 ≤ o.beta2 * (a J).2.1 + (1 - o.beta2) * (g J + o.weightDecay * θ J) ^ 2 := fun J =>
      add_nonneg (mul_nonneg b20 (q3 J).1) (mul_nonneg (by linarith) (sq_nonneg _))
    refine Runs.cons (Q := fun s' => St L.get s' (fun j : Fin 5 => (![some (fun J => ((o.toNetAmsgrad fun k => o.lr / (1 - o.beta2 ^ k)).rule.step k (θ J) (g J) (a J)).1), none,
        some (fun J => o.beta1 * (a J).1 + (1 - o.beta1) * (g J + o.weightDecay * θ J)),
        some (fun J => Real.sqrt (o.beta2 * (a J).2.1 + (1 - o.beta2) * (g J + o.weightDecay * θ J) ^ 2)),
        some (fun J => Real.sqrt (max (a J).2.2 (o.beta2 * (a J).2.1 + (1 - o.beta2) * (g J + o.weightDecay * θ J) ^ 2)))] : Fin 5 → _) j)) ?_ fun s8 _ h8 => ?_
    · refine h5.step inj (i := (4 : Fin 5)) ((C11_maximum (h5.ready (3 : Fin 5)) (h5.ready (4 : Fin 5)) lvw _ _ (h5.hold (3 : Fin 5) _ rfl) (h5.hold (4 : Fin 5) _ rfl)).congr
        (w := fun J => Real.sqrt (max (a J).2.2 (o.beta2 * (a J).2.1 + (1 - o.beta2) * (g J + o.weightDecay * θ J) ^ 2))) fun J _ => ?_) (by simp [L]) fun s6 h6 => ?_
      · rw [Monotone.map_max (f := Real.sqrt) (fun _ _ h => Real.sqrt_le_sqrt h), max_comm]
        rfl
      refine h6.step inj (i := (0 : Fin 5)) ((C11_addcdiv_partial (h6.ready (2 : Fin 5)) (h6.ready (4 : Fin 5)) (h6.ready (0 : Fin 5)) lmp lwp _ _ _ _ _ (h6.hold (2 : Fin 5) _ rfl)
        (h6.hold (4 : Fin 5) _ rfl) (h6.hold (0 : Fin 5) _ rfl)).congr (w := fun J => ((o.toNetAmsgrad fun k => o.lr / (1 - o.beta2 ^ k)).rule.step k (θ J) (g J) (a J)).1) fun J _ => ?_)
        (by simp [L]) fun s7 h7 => ?_
      · refine Eq.trans ?_ (adam_update_real hv k (o.lr / (1 - o.beta2 ^ (k + 1))) (le_max_of_le_right (hw J)))
        have e : (((k + 1 : ℕ) : Int) : ℝ) = ((k + 1 : ℕ) : ℝ) := by norm_cast
        have p2 : o.beta2 ^ (k + 1) < 1 := pow_lt_one₀ b20 b21 (by omega)
        show _ + -o.lr / (1 - o.beta1 ^ (((k + 1 : ℕ) : Int) : ℝ)) / Real.sqrt (1 - o.beta2 ^ (((k + 1 : ℕ) : Int) : ℝ)) * _ / (_ + o.eps * Real.sqrt (1 - o.beta2 ^ (((k + 1 : ℕ) : Int) : ℝ)))
          = _ + -(o.lr / (1 - o.beta2 ^ (k + 1))) / (1 - o.beta1 ^ (((k + 1 : ℕ) : Int) : ℝ)) * Real.sqrt (1 - o.beta2 ^ (((k + 1 : ℕ) : Int) : ℝ)) * _
            / (_ + o.eps * Real.sqrt (1 - o.beta2 ^ (((k + 1 : ℕ) : Int) : ℝ)))
        rw [e, Real.rpow_natCast, Real.rpow_natCast]
        congr 3
        have e2 : 1 - o.beta2 ^ (k + 1) = Real.sqrt (1 - o.beta2 ^ (k + 1)) * Real.sqrt (1 - o.beta2 ^ (k + 1)) := (Real.mul_self_sqrt (by linarith)).symm
        have q0 : Real.sqrt (1 - o.beta2 ^ (k + 1)) ≠ 0 := ne_of_gt (Real.sqrt_pos.2 (by linarith))
        have p1 : o.beta1 ^ (k + 1) < 1 := pow_lt_one₀ hv.beta_1_nonneg b11 (by omega)
        have q1 : 1 - o.beta1 ^ (k + 1) ≠ 0 := by linarith
        have e3 : o.lr / (1 - o.beta2 ^ (k + 1)) = o.lr / (Real.sqrt (1 - o.beta2 ^ (k + 1)) * Real.sqrt (1 - o.beta2 ^ (k + 1))) := by rw [← e2]
        rw [e3]
        generalize Real.sqrt (1 - o.beta2 ^ (k + 1)) = c at q0
        field_simp
      · refine Runs.nil ⟨h7.ready, fun j u hu => ?_⟩
        fin_cases j
        · exact h7.hold (0 : Fin 5) _ hu
        · cases hu
        · exact h7.hold (2 : Fin 5) _ hu
        · exact h7.hold (3 : Fin 5) _ hu
        · exact h7.hold (4 : Fin 5) _ hu
    · refine Runs.nil ⟨h8.ready (0 : Fin 5), h8.ready (1 : Fin 5), h8.hold (0 : Fin 5) _ rfl, fun m' v' w' hm' hv' hw' => ?_⟩
      rw [hm] at hm'
      rw [hv2] at hv'
      rw [hw2] at hw'
      cases hm'
      cases hv'
      cases hw'
      exact ⟨h8.ready (2 : Fin 5), h8.ready (3 : Fin 5), h8.ready (4 : Fin 5), fun J => ⟨hw J, le_max_of_le_right (hw J)⟩, by omega,
        fun _ => ⟨h8.hold (2 : Fin 5) _ rfl, h8.hold (3 : Fin 5) _ rfl, h8.hold (4 : Fin 5) _ rfl⟩⟩

/-- One parameter of one number. -/
noncomputable def amsgradExample : Adam ℝ := ⟨[⟨⟨0, [1], [1]⟩, ⟨1, [1], [1]⟩, true⟩], [⟨2, [1], [1]⟩], [⟨3, [1], [1]⟩], [⟨4, [1], [1]⟩], true, 1, 0, 3/4, 0, 1⟩

theorem amsgradExample_fits : amsgradExample.Fits ∧ amsgradExample.hyper.Valid := by
  refine ⟨⟨by decide, by simp [amsgradExample], by simp [amsgradExample], ?_⟩, ?_⟩
  · simp only [amsgradExample, if_true, List.forall_mem_cons, List.not_mem_nil, IsEmpty.forall_iff, implies_true, and_true, List.zip_cons_cons, List.zip_nil_right]
  · simp only [amsgradExample, Adam.hyper]
    constructor <;> norm_num

/-- The first step with the learning rate 1 from the parameter 0 with the gradient 1 (`beta1 = 0`, `beta2 = 3/4`, `eps = 1`) leads to −2 instead of −1/2. -/
theorem C43_amsgrad_refuted :
    (∃ (s : Store ℝ) (tasks : List (Task ℝ)) (s' : Store ℝ),
      (⟨0, [1], [1]⟩ : Tensor).Holds s (fun _ => 0) ∧ (⟨1, [1], [1]⟩ : Tensor).Holds s (fun _ => 1) ∧
      (PyOpt.adam amsgradExample).step false 0 = .ok tasks ∧ runAll tasks s = .ok s' ∧ (⟨0, [1], [1]⟩ : Tensor).Holds s' (fun _ => -2)) ∧
    ((amsgradRule amsgradExample.hyper fun _ => amsgradExample.lr).step 0 0 1 (0, 0, 0)).1 = -1/2 ∧
    ¬ (amsgradExample.toNetAmsgrad fun _ => amsgradExample.lr).Correct := by
  obtain ⟨fit, val⟩ := amsgradExample_fits
  have hc := C43_amsgrad_partial fit val rfl
  have hT := storeOf_spec (α := ℝ) [(⟨0, [1], [1]⟩, fun _ => 0), (⟨1, [1], [1]⟩, fun _ => 1), (⟨2, [1], [1]⟩, fun _ => 0), (⟨3, [1], [1]⟩, fun _ => 0), (⟨4, [1], [1]⟩, fun _ => 0)]
    (by simp [Tensor.WF]) (by simp)
  generalize storeOf _ = s at hT
  simp only [List.forall_mem_cons, List.not_mem_nil, IsEmpty.forall_iff, implies_true, and_true] at hT
  obtain ⟨h0, h1, h2, h3, h4⟩ := hT
  have ready : AllReady (paramTensors amsgradExample.params) s := by
    simp only [AllReady, paramTensors, amsgradExample, List.flatMap_cons, List.flatMap_nil, List.cons_append, List.nil_append, List.append_nil, List.forall_mem_cons,
      List.not_mem_nil, IsEmpty.forall_iff, implies_true, and_true]
    exact ⟨h0.1, h1.1⟩
  have readyT : AllReady (amsgradExample.firstMoments ++ (amsgradExample.secondMoments ++ amsgradExample.maxSecondMoments)) s := by
    simp only [AllReady, amsgradExample, List.cons_append, List.nil_append, List.forall_mem_cons, List.not_mem_nil, IsEmpty.forall_iff, implies_true, and_true]
    exact ⟨h2.1, h3.1, h4.1⟩
  have vals : ∀ p ∈ amsgradExample.params, p.value.Holds s ((fun _ _ => 0 : Env) p.value.id) ∧ p.grad.Holds s ((fun _ _ => 1 : Env) p.value.id) := by
    simp only [amsgradExample, List.forall_mem_cons, List.not_mem_nil, IsEmpty.forall_iff, implies_true, and_true]
    exact ⟨h0.2, h1.2⟩
  have r : ∀ lr : ℝ, ((amsgradRule amsgradExample.hyper fun _ => lr).step 0 0 1 (0, 0, 0)).1 = -lr / 2 := by
    intro lr
    simp only [amsgradRule, amsgradExample, Adam.hyper, adamUpdate]
    norm_num
    ring
  obtain ⟨tasks, s', e1, e2, -, -, e3, -⟩ := hc.step 0 s (fun _ _ => 0) (fun _ _ => 1) _ ready vals (hc.init s readyT)
  have e4 := e3 ⟨⟨0, [1], [1]⟩, ⟨1, [1], [1]⟩, true⟩ (by simp [Adam.toNetAmsgrad, amsgradExample])
  have r4 : ((amsgradExample.toNetAmsgrad fun k => amsgradExample.lr / (1 - amsgradExample.beta2 ^ k)).rule.step 0 0 1
      (amsgradExample.toNetAmsgrad fun k => amsgradExample.lr / (1 - amsgradExample.beta2 ^ k)).rule.init).1 = -2 := by
    simp only [Adam.toNetAmsgrad, amsgradRule, amsgradExample, Adam.hyper, adamUpdate]
    norm_num
  simp only [r4] at e4
  have rl := r amsgradExample.lr
  refine ⟨⟨s, tasks, s', h0.2, h1.2, e1, e2, e4⟩, by rw [rl]; rfl, fun hw => ?_⟩
  obtain ⟨tasks', s2, f1, f2, -, -, f3, -⟩ := hw.step 0 s (fun _ _ => 0) (fun _ _ => 1) _ ready vals (hw.init s readyT)
  have hE := e1.symm.trans f1
  cases hE
  have hS := e2.symm.trans f2
  cases hS
  have f4 := f3 ⟨⟨0, [1], [1]⟩, ⟨1, [1], [1]⟩, true⟩ (by simp [Adam.toNetAmsgrad, amsgradExample])
  have r5 : ((amsgradExample.toNetAmsgrad fun _ => amsgradExample.lr).rule.step 0 0 1 (amsgradExample.toNetAmsgrad fun _ => amsgradExample.lr).rule.init).1 = -1/2 := rl
  simp only [r5] at f4
  have := (e4 [0] (by simp [InBox])).symm.trans (f4 [0] (by simp [InBox]))
  norm_num at this

end NNTile
