import Verif.Lib.Optim
import Verif.Props.C11
import Verif.Props.C11Axpy
import Mathlib.Tactic.Linarith
import Mathlib.Tactic.FieldSimp
/-!
# The operations of which the step of `Adam` consists
-/
namespace NNTile

theorem decay_computes {wd : ℝ} {v g : Tensor} {s : Store ℝ} (hid : v.id ≠ g.id) (hl : g.shape = v.shape ∧ g.basetile = v.basetile) (rv : v.Ready s) (rg : g.Ready s)
    {θ x : List Nat → ℝ} (hθ : v.Holds s θ) (hx : g.Holds s x) :
    Computes (whenAsync (!FP.eqb wd 0) (axpyScalarAsync wd v g)) s g (fun J => x J + wd * θ J) := by
  by_cases hw : wd = 0
  · have h0 : (!FP.eqb wd 0) = false := by simp [hw]
    simp only [h0, whenAsync, Bool.false_eq_true, if_false]
    exact (Computes.skip hx rg).congr fun J _ => by rw [hw, zero_mul, add_zero]
  · have : (!FP.eqb wd 0) = true := by simpa using hw
    simp only [whenAsync, this, if_true]
    exact (C11_axpy_scalar rv rg ⟨hid, hl.1.symm, hl.2.symm⟩ _ _ _ hθ hx).congr fun J _ => add_comm _ _

theorem first_moment_computes {b1 : ℝ} (hb : b1 < 1) {k : ℕ} {g m : Tensor} {s : Store ℝ} (hl : g.Like m) (rg : g.Ready s) (rm : m.Ready s) {x a : List Nat → ℝ}
    (hx : g.Holds s x) (h0 : k = 0 → ∀ J, a J = 0) (h1 : k ≠ 0 → m.Holds s a) :
    Computes (if k + 1 = 1 then seqAsync [clearAsync m, addAsync (1 - b1) g 0 m] else addAsync (1 - b1) g b1 m) s m (fun J => b1 * a J + (1 - b1) * x J) := by
  by_cases hk : k = 0
  · rw [if_pos (by omega)]
    refine (C11_clear rm).then fun s2 c2 q2 r2 => ?_
    have hid : g.id ∉ [m.id] := by simpa using hl.1
    refine ((C11_add_partial (c2.ready rg hid) r2 hl (1 - b1) 0 x (fun _ => 0) (c2.holds hx hid) (fun h => absurd rfl h) (.inr (.inl rfl))).congr
      (w := fun J => b1 * a J + (1 - b1) * x J) fun J _ => ?_).then fun s3 c3 q3 r3 => Computes.nil q3 r3
    rw [h0 hk]
    ring
  · rw [if_neg (by omega)]
    exact (C11_add_partial rg rm hl (1 - b1) b1 x a hx (fun _ => h1 hk) (.inl (by linarith))).congr fun J _ => add_comm _ _

theorem clear_first_computes {k : ℕ} {v : Tensor} {s : Store ℝ} (rv : v.Ready s) {b : List Nat → ℝ} (h0 : k = 0 → ∀ J, b J = 0) (h1 : k ≠ 0 → v.Holds s (fun J => Real.sqrt (b J))) :
    Computes (whenAsync (k + 1 = 1) (clearAsync v)) s v (fun J => Real.sqrt (b J)) := by
  by_cases hk : k = 0
  · have : decide (k + 1 = 1) = true := decide_eq_true (by omega)
    simp only [whenAsync, this, if_true]
    refine (C11_clear rv).congr fun J _ => ?_
    rw [h0 hk, Real.sqrt_zero]
  · have : decide (k + 1 = 1) = false := decide_eq_false (by omega)
    simp only [whenAsync, this, Bool.false_eq_true, if_false]
    exact Computes.skip (h1 hk) rv

theorem second_moment_computes {b2 : ℝ} (hb0 : 0 ≤ b2) (hb1 : b2 < 1) {g v : Tensor} {s : Store ℝ} (hl : g.Like v) (rg : g.Ready s) (rv : v.Ready s) {x b : List Nat → ℝ}
    (hx : g.Holds s x) (hb : ∀ J, 0 ≤ b J) (hv : v.Holds s (fun J => Real.sqrt (b J))) :
    Computes (hypotAsync (FP.sqrt (1 - b2)) g (FP.sqrt b2) v) s v (fun J => Real.sqrt (b2 * b J + (1 - b2) * x J ^ 2)) := by
  refine (C11_hypot_partial rg rv hl (Real.sqrt (1 - b2)) (Real.sqrt b2) x _ hx (fun _ => hv) (fun _ _ J => Real.sqrt_nonneg _)).congr fun J _ => ?_
  rw [mul_pow, mul_pow, Real.sq_sqrt hb0, Real.sq_sqrt (hb J), Real.sq_sqrt (by linarith), add_comm]

/-- One number: what the separate operations compute is what the rule prescribes. -/
theorem adam_update_real {h : AdamParams} (hv : h.Valid) (k : ℕ) (lr : ℝ) {x m w : ℝ} (hw : 0 ≤ w) :
    x + -lr / (1 - h.beta_1 ^ (((k + 1 : ℕ) : Int) : ℝ)) * Real.sqrt (1 - h.beta_2 ^ (((k + 1 : ℕ) : Int) : ℝ)) * m
        / (Real.sqrt w + h.eps * Real.sqrt (1 - h.beta_2 ^ (((k + 1 : ℕ) : Int) : ℝ)))
      = x - adamUpdate { h with lr := lr } (k + 1) m w := by
  have e : (((k + 1 : ℕ) : Int) : ℝ) = ((k + 1 : ℕ) : ℝ) := by norm_cast
  rw [e, Real.rpow_natCast, Real.rpow_natCast, adamUpdate]
  have p1 : h.beta_1 ^ (k + 1) < 1 := pow_lt_one₀ hv.beta_1_nonneg hv.beta_1_lt (by omega)
  have p2 : h.beta_2 ^ (k + 1) < 1 := pow_lt_one₀ hv.beta_2_nonneg hv.beta_2_lt (by omega)
  have q1 : 1 - h.beta_1 ^ (k + 1) ≠ 0 := by linarith
  have q2 : 0 < Real.sqrt (1 - h.beta_2 ^ (k + 1)) := Real.sqrt_pos.2 (by linarith)
  simp only
  rw [Real.sqrt_div hw]
  generalize Real.sqrt (1 - h.beta_2 ^ (k + 1)) = c at q2 ⊢
  have h1 := Real.sqrt_nonneg w
  have q3 : Real.sqrt w + h.eps * c ≠ 0 := ne_of_gt (add_pos_of_nonneg_of_pos h1 (mul_pos hv.eps_pos q2))
  have q4 : Real.sqrt w / c + h.eps ≠ 0 := ne_of_gt (add_pos_of_nonneg_of_pos (div_nonneg h1 q2.le) hv.eps_pos)
  have q5 : c ≠ 0 := ne_of_gt q2
  have e2 : Real.sqrt w / c + h.eps = (Real.sqrt w + h.eps * c) / c := by field_simp
  rw [e2]
  field_simp
  ring

end NNTile
