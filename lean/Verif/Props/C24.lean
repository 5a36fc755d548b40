import Verif.Lib.Adam
import Verif.Lib.Store
/-!
# C24: Adam and AdamW steps implement the published recurrences
-/
namespace NNTile

section
variable {α : Type} [FP α] {grad m v p : Tensor} {s : Store α}

/-- First call (`num_iter = 1`), in the arithmetic of the scalar type. The moments need not hold any values before. `g' I` is the gradient
with the weight decay term. -/
theorem C24_adam_first_step (hf : AdamFit grad m v p) (hgr : grad.Ready s) (hmr : m.Ready s) (hvr : v.Ready s) (hpr : p.Ready s)
    (beta_1 beta_2 eps lr weight_decay : α) {g x : List Nat → α} (hg : grad.Holds s g) (hp : p.Holds s x) (g' : List Nat → α)
    (hg' : ∀ I, g' I = if FP.eqb weight_decay 0 then g I else g I + weight_decay * x I) :
    ∃ tasks s', adamStepAsync 1 beta_1 beta_2 eps lr weight_decay grad m v p = .ok tasks ∧ runAll tasks s = .ok s' ∧
      m.Holds s' (fun I => (1 - beta_1) * g' I) ∧
      v.Holds s' (fun I => FP.sqrt (1 - beta_2) * FP.fabs (g' I)) ∧
      p.Holds s' (fun I => x I - lr / (1 - FP.pow beta_1 (FP.ofIndex 1)) * ((1 - beta_1) * g' I)
        / (FP.sqrt (1 - beta_2) * FP.fabs (g' I) * (1 / FP.sqrt (1 - FP.pow beta_2 (FP.ofIndex 1))) + eps)) ∧
      OnlyChanged [m.id, v.id, p.id] s s' := by
  obtain ⟨tasks, s', e1, e2, e3, e4, e5, e6, -⟩ := adamTensor_run (codelet := "adam_step") (kernel := adamKernel) (num_iter := 1) (beta_1 := beta_1) (beta_2 := beta_2)
    (eps := eps) (lr := lr) (weight_decay := weight_decay) (fun _ _ _ => rfl) hf hgr hmr hvr hpr hg hp (xm := g) (xv := g)
    (fun h => absurd rfl h) (fun h => absurd rfl h)
  refine ⟨tasks, s', e1, e2, ?_, ?_, ?_, e6⟩
  · intro I hI
    simp only
    rw [e3 I hI, hg']
    by_cases h : FP.eqb weight_decay 0 <;> simp [adamElem, h]
  · intro I hI
    simp only
    rw [e4 I hI, hg']
    by_cases h : FP.eqb weight_decay 0 <;> simp [adamElem, h]
  · intro I hI
    simp only
    rw [e5 I hI, hg']
    by_cases h : FP.eqb weight_decay 0 <;> simp [adamElem, h]

/-- Any later call. -/
theorem C24_adam_step (hf : AdamFit grad m v p) (hgr : grad.Ready s) (hmr : m.Ready s) (hvr : v.Ready s) (hpr : p.Ready s)
    (num_iter : Int) (hn : num_iter ≠ 1) (beta_1 beta_2 eps lr weight_decay : α) {g xm xv x : List Nat → α} (hg : grad.Holds s g)
    (hm : m.Holds s xm) (hv : v.Holds s xv) (hp : p.Holds s x) (g' m' v' : List Nat → α)
    (hg' : ∀ I, g' I = if FP.eqb weight_decay 0 then g I else g I + weight_decay * x I)
    (hm' : ∀ I, m' I = beta_1 * xm I + (1 - beta_1) * g' I)
    (hv' : ∀ I, v' I = FP.hypot (FP.sqrt beta_2 * xv I) (FP.sqrt (1 - beta_2) * g' I)) :
    ∃ tasks s', adamStepAsync num_iter beta_1 beta_2 eps lr weight_decay grad m v p = .ok tasks ∧ runAll tasks s = .ok s' ∧
      m.Holds s' m' ∧ v.Holds s' v' ∧
      p.Holds s' (fun I => x I - lr / (1 - FP.pow beta_1 (FP.ofIndex num_iter)) * m' I
        / (v' I * (1 / FP.sqrt (1 - FP.pow beta_2 (FP.ofIndex num_iter))) + eps)) ∧
      OnlyChanged [m.id, v.id, p.id] s s' := by
  obtain ⟨tasks, s', e1, e2, e3, e4, e5, e6, -⟩ := adamTensor_run (codelet := "adam_step") (kernel := adamKernel) (num_iter := num_iter) (beta_1 := beta_1) (beta_2 := beta_2)
    (eps := eps) (lr := lr) (weight_decay := weight_decay) (fun _ _ _ => rfl) hf hgr hmr hvr hpr hg hp (xm := xm) (xv := xv)
    (fun _ => hm) (fun _ => hv)
  refine ⟨tasks, s', e1, e2, ?_, ?_, ?_, e6⟩
  · intro I hI
    rw [e3 I hI, hm', hg']
    by_cases h : FP.eqb weight_decay 0 <;> simp [adamElem, h, hn]
  · intro I hI
    rw [e4 I hI, hv', hg']
    by_cases h : FP.eqb weight_decay 0 <;> simp [adamElem, h, hn]
  · intro I hI
    simp only
    rw [e5 I hI, hv', hm', hg']
    by_cases h : FP.eqb weight_decay 0 <;> simp [adamElem, h, hn]

/-- AdamW: first call. `x' I` is the decayed parameter. -/
theorem C24_adamw_first_step (hf : AdamFit grad m v p) (hgr : grad.Ready s) (hmr : m.Ready s) (hvr : v.Ready s) (hpr : p.Ready s)
    (beta_1 beta_2 eps lr weight_decay : α) {g x : List Nat → α} (hg : grad.Holds s g) (hp : p.Holds s x) (x' : List Nat → α)
    (hx' : ∀ I, x' I = if FP.eqb weight_decay 0 then x I else x I * (1 - lr * weight_decay)) :
    ∃ tasks s', adamwStepAsync 1 beta_1 beta_2 eps lr weight_decay grad m v p = .ok tasks ∧ runAll tasks s = .ok s' ∧
      m.Holds s' (fun I => (1 - beta_1) * g I) ∧
      v.Holds s' (fun I => FP.sqrt (1 - beta_2) * FP.fabs (g I)) ∧
      p.Holds s' (fun I => x' I - lr / (1 - FP.pow beta_1 (FP.ofIndex 1)) * ((1 - beta_1) * g I)
        / (FP.sqrt (1 - beta_2) * FP.fabs (g I) * (1 / FP.sqrt (1 - FP.pow beta_2 (FP.ofIndex 1))) + eps)) ∧
      OnlyChanged [m.id, v.id, p.id] s s' := by
  obtain ⟨tasks, s', e1, e2, e3, e4, e5, e6, -⟩ := adamTensor_run (codelet := "adamw_step") (kernel := adamwKernel) (num_iter := 1) (beta_1 := beta_1) (beta_2 := beta_2)
    (eps := eps) (lr := lr) (weight_decay := weight_decay) (fun _ _ _ => rfl) hf hgr hmr hvr hpr hg hp (xm := g) (xv := g)
    (fun h => absurd rfl h) (fun h => absurd rfl h)
  refine ⟨tasks, s', e1, e2, ?_, ?_, ?_, e6⟩
  · intro I hI
    rw [e3 I hI]
    by_cases h : FP.eqb weight_decay 0 <;> simp [adamElem, h]
  · intro I hI
    rw [e4 I hI]
    by_cases h : FP.eqb weight_decay 0 <;> simp [adamElem, h]
  · intro I hI
    simp only
    rw [e5 I hI, hx']
    by_cases h : FP.eqb weight_decay 0 <;> simp [adamElem, h]

/-- AdamW: any later call. -/
theorem C24_adamw_step (hf : AdamFit grad m v p) (hgr : grad.Ready s) (hmr : m.Ready s) (hvr : v.Ready s) (hpr : p.Ready s)
    (num_iter : Int) (hn : num_iter ≠ 1) (beta_1 beta_2 eps lr weight_decay : α) {g xm xv x : List Nat → α} (hg : grad.Holds s g)
    (hm : m.Holds s xm) (hv : v.Holds s xv) (hp : p.Holds s x) (x' m' v' : List Nat → α)
    (hx' : ∀ I, x' I = if FP.eqb weight_decay 0 then x I else x I * (1 - lr * weight_decay))
    (hm' : ∀ I, m' I = beta_1 * xm I + (1 - beta_1) * g I)
    (hv' : ∀ I, v' I = FP.hypot (FP.sqrt beta_2 * xv I) (FP.sqrt (1 - beta_2) * g I)) :
    ∃ tasks s', adamwStepAsync num_iter beta_1 beta_2 eps lr weight_decay grad m v p = .ok tasks ∧ runAll tasks s = .ok s' ∧
      m.Holds s' m' ∧ v.Holds s' v' ∧
      p.Holds s' (fun I => x' I - lr / (1 - FP.pow beta_1 (FP.ofIndex num_iter)) * m' I
        / (v' I * (1 / FP.sqrt (1 - FP.pow beta_2 (FP.ofIndex num_iter))) + eps)) ∧
      OnlyChanged [m.id, v.id, p.id] s s' := by
  obtain ⟨tasks, s', e1, e2, e3, e4, e5, e6, -⟩ := adamTensor_run (codelet := "adamw_step") (kernel := adamwKernel) (num_iter := num_iter) (beta_1 := beta_1) (beta_2 := beta_2)
    (eps := eps) (lr := lr) (weight_decay := weight_decay) (fun _ _ _ => rfl) hf hgr hmr hvr hpr hg hp (xm := xm) (xv := xv)
    (fun _ => hm) (fun _ => hv)
  refine ⟨tasks, s', e1, e2, ?_, ?_, ?_, e6⟩
  · intro I hI
    rw [e3 I hI, hm']
    by_cases h : FP.eqb weight_decay 0 <;> simp [adamElem, h, hn]
  · intro I hI
    rw [e4 I hI, hv']
    by_cases h : FP.eqb weight_decay 0 <;> simp [adamElem, h, hn]
  · intro I hI
    simp only
    rw [e5 I hI, hv', hm', hx']
    by_cases h : FP.eqb weight_decay 0 <;> simp [adamElem, h, hn]

end

/-! ### Training runs in exact arithmetic -/
section
variable {grad m v p : Tensor} {h : AdamParams}

private theorem second_real {b v g : ℝ} (h0 : 0 ≤ b) (h1 : b < 1) (hv : 0 ≤ v) :
    Real.sqrt ((Real.sqrt b * Real.sqrt v) ^ 2 + (Real.sqrt (1 - b) * g) ^ 2) = Real.sqrt (b * v + (1 - b) * g ^ 2) := by
  rw [mul_pow, mul_pow, Real.sq_sqrt h0, Real.sq_sqrt hv, Real.sq_sqrt (by linarith)]

private theorem second_first {b g : ℝ} (h1 : b < 1) : Real.sqrt (1 - b) * |g| = Real.sqrt (b * 0 + (1 - b) * g ^ 2) := by
  rw [mul_zero, zero_add, Real.sqrt_mul (by linarith), Real.sqrt_sq_eq_abs]

private theorem update_real (k : ℕ) {x f w : ℝ} (hw : 0 ≤ w) :
    x - h.lr / (1 - h.beta_1 ^ ((k : Int) : ℝ)) * f / (Real.sqrt w * (1 / Real.sqrt (1 - h.beta_2 ^ ((k : Int) : ℝ))) + h.eps)
      = x - adamUpdate h k f w := by
  have e : ((k : Int) : ℝ) = (k : ℝ) := by norm_cast
  rw [adamUpdate, e, Real.rpow_natCast, Real.rpow_natCast, Real.sqrt_div hw, mul_one_div]
  congr 2
  ring

/-- The general induction: `prep` changes parameter and gradient, `rec` is the recurrence. -/
private theorem trained_run {step : Int → M (List (Task ℝ))} {prep : ℝ → ℝ → ℝ × ℝ} {codelet : String} {kernel : AdamKernel ℝ} (hv : h.Valid)
    (hstep : ∀ k, step k = adamTensor codelet kernel k h.beta_1 h.beta_2 h.eps h.lr h.weight_decay grad m v p)
    (hk : ∀ k n g b, kernel k n h.beta_1 h.beta_2 h.eps h.lr h.weight_decay g b = adamLoop prep k n h.beta_1 h.beta_2 h.eps h.lr g b)
    (rec : (ℕ → ℝ) → ℝ → ℕ → AdamState) (hr0 : ∀ g x, rec g x 0 = ⟨x, 0, 0⟩)
    (hr1 : ∀ g x k, rec g x (k + 1) =
      ⟨(prep (rec g x k).theta (g k)).1 - adamUpdate h (k + 1) (h.beta_1 * (rec g x k).m + (1 - h.beta_1) * (prep (rec g x k).theta (g k)).2)
        (h.beta_2 * (rec g x k).v + (1 - h.beta_2) * (prep (rec g x k).theta (g k)).2 ^ 2),
       h.beta_1 * (rec g x k).m + (1 - h.beta_1) * (prep (rec g x k).theta (g k)).2,
       h.beta_2 * (rec g x k).v + (1 - h.beta_2) * (prep (rec g x k).theta (g k)).2 ^ 2⟩)
    (hf : AdamFit grad m v p) {g : ℕ → List Nat → ℝ} {x : List Nat → ℝ} {s0 : Store ℝ} (hm0 : m.Ready s0) (hv0 : v.Ready s0) (hp0 : p.Ready s0)
    (hx : p.Holds s0 x) :
    ∀ k s, Trained step grad m v p g s0 k s →
      (m.Ready s ∧ v.Ready s ∧ p.Ready s ∧ p.Holds s (fun I => (rec (fun k => g k I) (x I) k).theta) ∧
        (k ≠ 0 → m.Holds s (fun I => (rec (fun k => g k I) (x I) k).m) ∧ v.Holds s (fun I => Real.sqrt (rec (fun k => g k I) (x I) k).v))) ∧
      ∀ s', NewGradient grad m v p (g k) s s' → ∃ tasks s'', step (k + 1 : ℕ) = .ok tasks ∧ runAll tasks s' = .ok s'' := by
  have hvn : ∀ g x k, 0 ≤ (rec g x k).v := by
    intro g x k
    induction k with
    | zero => rw [hr0]
    | succ k ih =>
      rw [hr1]
      have h1 := hv.beta_2_lt
      have h0 := hv.beta_2_nonneg
      have := mul_nonneg h0 ih
      have := mul_nonneg (show 0 ≤ 1 - h.beta_2 by linarith) (sq_nonneg (prep (rec g x k).theta (g k)).2)
      simp only
      linarith
  have main : ∀ k s, (m.Ready s ∧ v.Ready s ∧ p.Ready s ∧ p.Holds s (fun I => (rec (fun k => g k I) (x I) k).theta) ∧
        (k ≠ 0 → m.Holds s (fun I => (rec (fun k => g k I) (x I) k).m) ∧ v.Holds s (fun I => Real.sqrt (rec (fun k => g k I) (x I) k).v))) →
      ∀ s', NewGradient grad m v p (g k) s s' → ∃ tasks s'', step (k + 1 : ℕ) = .ok tasks ∧ runAll tasks s' = .ok s'' ∧
        (m.Ready s'' ∧ v.Ready s'' ∧ p.Ready s'' ∧ p.Holds s'' (fun I => (rec (fun k => g k I) (x I) (k + 1)).theta) ∧
        (k + 1 ≠ 0 → m.Holds s'' (fun I => (rec (fun k => g k I) (x I) (k + 1)).m) ∧
          v.Holds s'' (fun I => Real.sqrt (rec (fun k => g k I) (x I) (k + 1)).v))) := by
    rintro k s ⟨a1, a2, a3, a4, a5⟩ s' hs'
    have b1 : m.Ready s' := ⟨a1.1, fun i hi => by rw [hs'.keeps_m]; exact a1.2 i hi⟩
    have b2 : v.Ready s' := ⟨a2.1, fun i hi => by rw [hs'.keeps_v]; exact a2.2 i hi⟩
    have b3 : p.Ready s' := ⟨a3.1, fun i hi => by rw [hs'.keeps_p]; exact a3.2 i hi⟩
    have b4 : p.Holds s' (fun I => (rec (fun k => g k I) (x I) k).theta) := fun I hI => by
      rw [Tensor.get_congr hs'.keeps_p]; exact a4 I hI
    have hk0 : ((k + 1 : ℕ) : Int) ≠ 1 → k ≠ 0 := by omega
    have b5 : ((k + 1 : ℕ) : Int) ≠ 1 → m.Holds s' (fun I => (rec (fun k => g k I) (x I) k).m) := fun hk I hI => by
      rw [Tensor.get_congr hs'.keeps_m]; exact (a5 (hk0 hk)).1 I hI
    have b6 : ((k + 1 : ℕ) : Int) ≠ 1 → v.Holds s' (fun I => Real.sqrt (rec (fun k => g k I) (x I) k).v) := fun hk I hI => by
      rw [Tensor.get_congr hs'.keeps_v]; exact (a5 (hk0 hk)).2 I hI
    obtain ⟨tasks, s'', e1, e2, e3, e4, e5, -, e7, e8, e9⟩ := adamTensor_run (codelet := codelet) (hk (k + 1 : ℕ)) hf hs'.ready b1 b2 b3 hs'.holds b4 b5 b6
    have em : ∀ I, (adamElem prep (k + 1 : ℕ) h.beta_1 h.beta_2 h.eps h.lr (g k I) (rec (fun k => g k I) (x I) k).m
        (Real.sqrt (rec (fun k => g k I) (x I) k).v) (rec (fun k => g k I) (x I) k).theta).1 = (rec (fun k => g k I) (x I) (k + 1)).m := by
      intro I
      rw [hr1]
      by_cases hk1 : ((k + 1 : ℕ) : Int) = 1
      · have : k = 0 := by omega
        subst this
        simp only [adamElem, hk1, if_true, hr0, mul_zero, zero_add]
      · simp only [adamElem, hk1, if_false]
    have ev : ∀ I, (adamElem prep (k + 1 : ℕ) h.beta_1 h.beta_2 h.eps h.lr (g k I) (rec (fun k => g k I) (x I) k).m
        (Real.sqrt (rec (fun k => g k I) (x I) k).v) (rec (fun k => g k I) (x I) k).theta).2.1 = Real.sqrt (rec (fun k => g k I) (x I) (k + 1)).v := by
      intro I
      by_cases hk1 : ((k + 1 : ℕ) : Int) = 1
      · have : k = 0 := by omega
        subst this
        rw [hr1]
        simp only [adamElem, hk1, if_true, hr0]
        exact second_first hv.beta_2_lt
      · have := hvn (fun k => g k I) (x I) k
        rw [hr1]
        simp only [adamElem, hk1, if_false]
        exact second_real hv.beta_2_nonneg hv.beta_2_lt this
    have ep : ∀ I, (adamElem prep (k + 1 : ℕ) h.beta_1 h.beta_2 h.eps h.lr (g k I) (rec (fun k => g k I) (x I) k).m
        (Real.sqrt (rec (fun k => g k I) (x I) k).v) (rec (fun k => g k I) (x I) k).theta).2.2 = (rec (fun k => g k I) (x I) (k + 1)).theta := by
      intro I
      have e : (adamElem prep (k + 1 : ℕ) h.beta_1 h.beta_2 h.eps h.lr (g k I) (rec (fun k => g k I) (x I) k).m
        (Real.sqrt (rec (fun k => g k I) (x I) k).v) (rec (fun k => g k I) (x I) k).theta).2.2
        = (prep (rec (fun k => g k I) (x I) k).theta (g k I)).1 - h.lr / (1 - h.beta_1 ^ (((k + 1 : ℕ) : Int) : ℝ))
          * (adamElem prep (k + 1 : ℕ) h.beta_1 h.beta_2 h.eps h.lr (g k I) (rec (fun k => g k I) (x I) k).m
            (Real.sqrt (rec (fun k => g k I) (x I) k).v) (rec (fun k => g k I) (x I) k).theta).1
          / ((adamElem prep (k + 1 : ℕ) h.beta_1 h.beta_2 h.eps h.lr (g k I) (rec (fun k => g k I) (x I) k).m
            (Real.sqrt (rec (fun k => g k I) (x I) k).v) (rec (fun k => g k I) (x I) k).theta).2.1
            * (1 / Real.sqrt (1 - h.beta_2 ^ (((k + 1 : ℕ) : Int) : ℝ))) + h.eps) := rfl
      rw [e, em, ev, update_real (k + 1) (hvn _ _ _), hr1]
    refine ⟨tasks, s'', by rw [hstep]; exact e1, e2, e7, e8, e9, ?_, fun _ => ⟨?_, ?_⟩⟩
    · intro I hI; rw [e5 I hI]; simp only [ep]
    · intro I hI; rw [e3 I hI]; simp only [em]
    · intro I hI; rw [e4 I hI]; simp only [ev]
  intro k s ht
  have inv : m.Ready s ∧ v.Ready s ∧ p.Ready s ∧ p.Holds s (fun I => (rec (fun k => g k I) (x I) k).theta) ∧
        (k ≠ 0 → m.Holds s (fun I => (rec (fun k => g k I) (x I) k).m) ∧ v.Holds s (fun I => Real.sqrt (rec (fun k => g k I) (x I) k).v)) := by
    induction ht with
    | start => exact ⟨hm0, hv0, hp0, fun I hI => by simp only; rw [hx I hI, hr0], fun h => absurd rfl h⟩
    | round prev grads accepted ran ih =>
      obtain ⟨tasks, s'', e1, e2, e3⟩ := main _ _ ih _ grads
      rw [e1] at accepted
      cases accepted
      rw [e2] at ran
      cases ran
      exact e3
  refine ⟨inv, fun s' hs' => ?_⟩
  obtain ⟨tasks, s'', e1, e2, -⟩ := main k s inv s' hs'
  exact ⟨tasks, s'', e1, e2⟩

/-- **Adam.** In every training run, of any length and with any gradients, that starts from parameters `x` and moments with arbitrary (also
undefined) contents: after `k` rounds `p` holds the Adam parameters, `m` the first moments and `v` the square roots of the second moments;
and the next call is accepted and executes without undefined behaviour. -/
theorem C24_adam_training (hv : h.Valid) (hf : AdamFit grad m v p) {g : ℕ → List Nat → ℝ} {x : List Nat → ℝ} {s0 : Store ℝ}
    (hm0 : m.Ready s0) (hv0 : v.Ready s0) (hp0 : p.Ready s0) (hx : p.Holds s0 x) (k : ℕ) (s : Store ℝ)
    (ht : Trained (fun i => adamStepAsync i h.beta_1 h.beta_2 h.eps h.lr h.weight_decay grad m v p) grad m v p g s0 k s) :
    p.Holds s (fun I => (adamRec h (fun i => g i I) (x I) k).theta) ∧
    (k ≠ 0 → m.Holds s (fun I => (adamRec h (fun i => g i I) (x I) k).m) ∧
      v.Holds s (fun I => Real.sqrt (adamRec h (fun i => g i I) (x I) k).v)) ∧
    ∀ s', NewGradient grad m v p (g k) s s' →
      ∃ tasks s'', adamStepAsync (k + 1 : ℕ) h.beta_1 h.beta_2 h.eps h.lr h.weight_decay grad m v p = .ok tasks ∧ runAll tasks s' = .ok s'' := by
  obtain ⟨⟨-, -, -, a, b⟩, c⟩ := trained_run (step := fun i => adamStepAsync i h.beta_1 h.beta_2 h.eps h.lr h.weight_decay grad m v p)
    (prep := fun p_val grad_val => if FP.eqb h.weight_decay 0 then (p_val, grad_val) else (p_val, grad_val + h.weight_decay * p_val))
    hv (fun _ => rfl) (fun _ _ _ _ => rfl) (adamRec h) (fun _ _ => rfl)
    (by
      intro g x k
      by_cases hw : h.weight_decay = 0
      · simp [adamRec, hw]
      · simp [adamRec, hw])
    hf hm0 hv0 hp0 hx k s ht
  exact ⟨a, b, c⟩

/-- **AdamW.** -/
theorem C24_adamw_training (hv : h.Valid) (hf : AdamFit grad m v p) {g : ℕ → List Nat → ℝ} {x : List Nat → ℝ} {s0 : Store ℝ}
    (hm0 : m.Ready s0) (hv0 : v.Ready s0) (hp0 : p.Ready s0) (hx : p.Holds s0 x) (k : ℕ) (s : Store ℝ)
    (ht : Trained (fun i => adamwStepAsync i h.beta_1 h.beta_2 h.eps h.lr h.weight_decay grad m v p) grad m v p g s0 k s) :
    p.Holds s (fun I => (adamwRec h (fun i => g i I) (x I) k).theta) ∧
    (k ≠ 0 → m.Holds s (fun I => (adamwRec h (fun i => g i I) (x I) k).m) ∧
      v.Holds s (fun I => Real.sqrt (adamwRec h (fun i => g i I) (x I) k).v)) ∧
    ∀ s', NewGradient grad m v p (g k) s s' →
      ∃ tasks s'', adamwStepAsync (k + 1 : ℕ) h.beta_1 h.beta_2 h.eps h.lr h.weight_decay grad m v p = .ok tasks ∧ runAll tasks s' = .ok s'' := by
  obtain ⟨⟨-, -, -, a, b⟩, c⟩ := trained_run (step := fun i => adamwStepAsync i h.beta_1 h.beta_2 h.eps h.lr h.weight_decay grad m v p)
    (prep := fun p_val grad_val => if FP.eqb h.weight_decay 0 then (p_val, grad_val) else (p_val * (1 - h.lr * h.weight_decay), grad_val))
    hv (fun _ => rfl) (fun _ _ _ _ => rfl) (adamwRec h) (fun _ _ => rfl)
    (by
      intro g x k
      by_cases hw : h.weight_decay = 0
      · simp [adamwRec, hw]
      · simp [adamwRec, hw]
        ring)
    hf hm0 hv0 hp0 hx k s ht
  exact ⟨a, b, c⟩

end

/-! ### Rejected arguments -/

/-- The step is rejected if one of the shapes differs from the shape of the parameters. Missing from the full property: different tilings
are not rejected (`C24_tiling_refuted`). -/
theorem C24_rejects_partial {α : Type} [FP α] {grad m v p : Tensor} (hg : grad.WF) (hm : m.WF) (hv : v.WF) (hp : p.WF)
    (h : grad.shape ≠ p.shape ∨ m.shape ≠ p.shape ∨ v.shape ≠ p.shape) (num_iter : Int) (beta_1 beta_2 eps lr weight_decay : α) :
    Throws (adamStepAsync num_iter beta_1 beta_2 eps lr weight_decay grad m v p) ∧
    Throws (adamwStepAsync num_iter beta_1 beta_2 eps lr weight_decay grad m v p) := by
  have key : ∀ codelet (kernel : AdamKernel α), Throws (adamTensor codelet kernel num_iter beta_1 beta_2 eps lr weight_decay grad m v p) := by
    intro codelet kernel
    rw [adamTensor]
    apply throws_step
    intro h1
    apply throws_step
    intro h2
    apply throws_pos
    intro h3
    simp only [ne_eq, Decidable.not_not] at h1 h2
    rcases h with h | h | h
    · exact h (matrixShapeOf_inj hg.1 hp.1 h1.symm)
    · exact h (matrixShapeOf_inj hm.1 hp.1 h2.symm)
    · exact h (matrixShapeOf_inj hv.1 hp.1 h3.symm)
  exact ⟨key _ _, key _ _⟩

/-- A gradient that is cut into other tiles than the parameters is accepted by both functions; the tasks then access memory outside of the tiles. -/
theorem C24_tiling_refuted : ∃ (grad m v p : Tensor) (s : Store ℝ),
    grad.Ready s ∧ m.Ready s ∧ v.Ready s ∧ p.Ready s ∧ grad.Defined s ∧ m.Defined s ∧ v.Defined s ∧ p.Defined s ∧
    grad.shape = p.shape ∧ grad.basetile ≠ p.basetile ∧
    (∃ tasks, adamStepAsync 2 0 0 1 1 0 grad m v p = .ok tasks ∧ IsUB (runAll tasks s)) ∧
    (∃ tasks, adamwStepAsync 2 0 0 1 1 0 grad m v p = .ok tasks ∧ IsUB (runAll tasks s)) := by
  let s : Store ℝ := fun h => ⟨if h.1 = 0 then 1 else 2, fun _ => some 1⟩
  have one : ∀ k, k ≠ 0 → (⟨k, [2], [2]⟩ : Tensor).Ready s := by
    intro k hk
    refine ⟨by simp only [Tensor.WF]; decide, ?_⟩
    intro i hi
    have : i = 0 := by have : i < 1 := hi; omega
    subst this
    simp only [s, hk, if_false]
    rfl
  refine ⟨⟨0, [2], [1]⟩, ⟨1, [2], [2]⟩, ⟨2, [2], [2]⟩, ⟨3, [2], [2]⟩, s, ?_, one 1 (by simp), one 2 (by simp), one 3 (by simp),
    fun _ _ => ⟨1, rfl⟩, fun _ _ => ⟨1, rfl⟩, fun _ _ => ⟨1, rfl⟩, fun _ _ => ⟨1, rfl⟩, rfl, by decide,
    ⟨[submitAdam "adam_step" adamKernel 2 2 0 0 1 1 0 (0, 0) (1, 0) (2, 0) (3, 0)], rfl, "read out of bounds", ?_⟩,
    ⟨[submitAdam "adamw_step" adamwKernel 2 2 0 0 1 1 0 (0, 0) (1, 0) (2, 0) (3, 0)], rfl, "read out of bounds", ?_⟩⟩
  · refine ⟨by decide, ?_⟩
    intro i hi
    have hi : i < 2 := hi
    rcases (show i = 0 ∨ i = 1 by omega) with rfl | rfl <;> decide
  · simp [runAll, Task.exec, Task.outs, submitAdam, adamKernel, adamLoop, forN, Store.view, Buf.rd, Buf.wr, s]
  · simp [runAll, Task.exec, Task.outs, submitAdam, adamwKernel, adamLoop, forN, Store.view, Buf.rd, Buf.wr, s]

/-! ### The hypotheses can be met -/

private def exT (k : Nat) : Tensor := ⟨k, [5, 7], [2, 3]⟩

private noncomputable def exS (c : Nat → ℝ) : Store ℝ := fun h =>
  if h.1 = 1 ∨ h.1 = 2 then Buf.undef ((exT 0).tshapeL h.2).prod else ⟨((exT 0).tshapeL h.2).prod, fun _ => some (c h.1)⟩

private theorem exFit : AdamFit (exT 0) (exT 1) (exT 2) (exT 3) := by
  constructor <;> simp [Tensor.Like, exT]

private theorem exReady (c : Nat → ℝ) (k : Nat) : (exT k).Ready (exS c) := by
  refine ⟨by simp only [Tensor.WF, exT]; decide, fun i _ => ?_⟩
  simp only [exS]
  split <;> rfl

/-- A `5×7` tensor in `2×3` tiles with undefined moments meets the hypotheses of the theorems about the first step and about training, and
the training run does not get stuck: there are runs with any number of rounds (here with gradients `1` everywhere). -/
example : ∃ (grad m v p : Tensor) (s0 : Store ℝ) (h : AdamParams), p.ntiles = 9 ∧ h.Valid ∧ AdamFit grad m v p ∧ m.Ready s0 ∧ v.Ready s0 ∧ p.Ready s0 ∧
    p.Holds s0 (fun _ => 5) ∧ ¬ m.Defined s0 ∧
    ∀ k, ∃ s, Trained (fun i => adamStepAsync i h.beta_1 h.beta_2 h.eps h.lr h.weight_decay grad m v p) grad m v p (fun _ _ => 1) s0 k s := by
  let h : AdamParams := ⟨1/2, 1/4, 1, 1, 0⟩
  have hval : h.Valid := by constructor <;> norm_num [h]
  let s0 := exS (fun _ => 5)
  have hx : (exT 3).Holds s0 (fun _ => 5) := fun I _ => by simp [Tensor.get, Tensor.hOf, s0, exS, exT]
  refine ⟨exT 0, exT 1, exT 2, exT 3, s0, h, rfl, hval, exFit, exReady _ 1, exReady _ 2, exReady _ 3, hx, ?_, ?_⟩
  · intro hd
    obtain ⟨w, hw⟩ := hd [0, 0] (by decide)
    simp [Tensor.get, Tensor.hOf, s0, exS, exT] at hw
  · intro k
    induction k with
    | zero => exact ⟨s0, .start⟩
    | succ k ih =>
      obtain ⟨s, hs⟩ := ih
      let s' : Store ℝ := fun q => if q.1 = 0 then ⟨((exT 0).tshapeL q.2).prod, fun _ => some 1⟩ else s q
      have hn : NewGradient (exT 0) (exT 1) (exT 2) (exT 3) (fun _ => 1) s s' := by
        refine ⟨fun i => ?_, fun i => ?_, fun i => ?_, ⟨(exReady (fun _ => 0) 0).1, fun i _ => ?_⟩, fun I _ => ?_⟩
        · simp [s', exT]
        · simp [s', exT]
        · simp [s', exT]
        · simp [s', exT]
        · simp [Tensor.get, Tensor.hOf, s', exT]
      obtain ⟨-, -, hnext⟩ := C24_adam_training hval exFit (exReady _ 1) (exReady _ 2) (exReady _ 3) hx k s hs
      obtain ⟨tasks, s'', e1, e2⟩ := hnext s' hn
      exact ⟨s'', .round hs hn e1 e2⟩

end NNTile
