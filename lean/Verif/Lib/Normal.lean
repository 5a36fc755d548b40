import Verif.Spec.Normal
import Verif.Spec.Random
import Verif.Lib.Period
/-! Values of the generated numbers. -/
namespace NNTile
noncomputable section

theorem drawState_eq (seed : Seed) (n : Nat) : drawState seed n = rndStep^[n] seed := rfl

theorem unitOf_lt (x : Seed) : unitOf x < 1 := by
  have : (x.toNat : ℝ) < 2 ^ 64 := by exact_mod_cast x.isLt
  rw [unitOf, div_lt_one (by positivity)]; exact this

theorem unitOf_nonneg (x : Seed) : 0 ≤ unitOf x := by rw [unitOf]; positivity

theorem unitOf_pos {x : Seed} (h : x ≠ 0) : 0 < unitOf x := by
  have h0 : x.toNat ≠ 0 := fun e => h (by apply BitVec.eq_of_toNat_eq; simpa using e)
  have : (0 : ℝ) < x.toNat := by exact_mod_cast Nat.pos_of_ne_zero h0
  rw [unitOf]; positivity

theorem laran_eq (x : Seed) : (laran x : XReal) = .fin (unitOf x) := by
  change XReal.mul (.fin _) (.fin _) = _
  simp only [XReal.mul, unitOf]
  congr 1
  push_cast
  ring

theorem normalOf_fin (mean dev : ℝ) {u : ℝ} (v : ℝ) (h0 : 0 < u) (h1 : u ≤ 1) : normalOf mean dev (.fin u) (.fin v) = .fin (boxMullerSpec mean dev u v) := by
  have hl : Real.log u ≤ 0 := Real.log_nonpos h0.le h1
  change XReal.add (XReal.mul (.fin dev) (XReal.mul (XReal.sqrt (XReal.mul (XReal.neg (.fin _)) (XReal.log (.fin u)))) (XReal.cos (XReal.mul (.fin v) (.fin _))))) (.fin mean) = _
  have e1 : XReal.log (.fin u) = .fin (Real.log u) := by simp [XReal.log, h0]
  have e2 : XReal.mul (XReal.neg (.fin ((2 : ℚ) : ℝ))) (.fin (Real.log u)) = .fin (-2 * Real.log u) := by
    simp only [XReal.neg, XReal.mul]; push_cast; rfl
  have e3 : XReal.sqrt (.fin (-2 * Real.log u)) = .fin (Real.sqrt (-2 * Real.log u)) := by
    simp only [XReal.sqrt]; rw [if_pos (by linarith)]
  rw [e1, e2, e3]
  simp only [XReal.mul, XReal.cos, XReal.add, boxMullerSpec, twoPiLit]
  congr 1
  push_cast
  rw [mul_comm v]
  ring

theorem normalOf_zero (mean : ℝ) {dev : ℝ} (hd : 0 < dev) {v : ℝ} (h0 : 0 ≤ v) (h1 : v < 1 / 10) : normalOf mean dev (.fin 0) (.fin v) = .pinf := by
  change XReal.add (XReal.mul (.fin dev) (XReal.mul (XReal.sqrt (XReal.mul (XReal.neg (.fin _)) (XReal.log (.fin 0)))) (XReal.cos (XReal.mul (.fin v) (.fin _))))) (.fin mean) = _
  have e1 : XReal.log (.fin 0) = .ninf := by simp [XReal.log]
  have e2 : XReal.mul (XReal.neg (.fin ((2 : ℚ) : ℝ))) .ninf = .pinf := by
    simp only [XReal.neg, XReal.mul, XReal.infOf]
    norm_num
  rw [e1, e2]
  have hc : 0 < Real.cos (v * ((62831853071795864769252867663 / 10 ^ 28 : ℚ) : ℝ)) := by
    apply Real.cos_pos_of_mem_Ioo
    have hp := Real.two_le_pi
    push_cast
    constructor
    · have : 0 ≤ v * (62831853071795864769252867663 / 10 ^ 28 : ℝ) := by positivity
      linarith
    · have : v * (62831853071795864769252867663 / 10 ^ 28 : ℝ) ≤ 1 / 10 * (62831853071795864769252867663 / 10 ^ 28 : ℝ) := by
        apply mul_le_mul_of_nonneg_right h1.le; positivity
      have h2 : (1 / 10 * (62831853071795864769252867663 / 10 ^ 28) : ℝ) < 1 := by norm_num
      linarith
  simp only [XReal.sqrt, XReal.mul, XReal.cos, XReal.infOf]
  rw [if_pos hc]
  simp only [XReal.infOf]
  rw [if_pos hd]
  rfl

/-- Number `k` of the stream. -/
theorem nthNormal_fin (mean dev : ℝ) (seed : Seed) (k : Nat) (h : drawState seed (2 * k) ≠ 0) :
    nthNormal laran (normalOf mean dev) seed k = .fin (boxMullerSpec mean dev (unitOf (drawState seed (2 * k))) (unitOf (drawState seed (2 * k + 1)))) := by
  rw [nthNormal, ← drawState_eq, ← drawState_eq, laran_eq, laran_eq]
  exact normalOf_fin mean dev _ (unitOf_pos h) (unitOf_lt _).le

theorem nthNormal_inf (mean : ℝ) {dev : ℝ} (hd : 0 < dev) (seed : Seed) (k : Nat) (h : drawState seed (2 * k) = 0) :
    nthNormal laran (normalOf mean dev) seed k = .pinf := by
  have h1 : rndStep^[2 * k + 1] seed = 1#64 := by
    rw [Function.iterate_succ_apply', ← drawState_eq, h]
    decide
  rw [nthNormal, h1, ← drawState_eq, h, laran_eq, laran_eq]
  have e0 : unitOf 0 = 0 := by simp [unitOf]
  rw [e0]
  exact normalOf_zero mean hd (unitOf_nonneg _) (by simp only [unitOf]; norm_num)

end
end NNTile
