import Verif.Spec.RealFP
/-! Simplification lemmas for the real interpretation. -/
namespace NNTile

@[simp] theorem eqb_real (a b : ℝ) : FP.eqb a b = true ↔ a = b := by simp [FP.eqb]
@[simp] theorem ltb_real (a b : ℝ) : FP.ltb a b = true ↔ a < b := by simp [FP.ltb]
@[simp] theorem eqb_real_false (a b : ℝ) : FP.eqb a b = false ↔ a ≠ b := by simp [FP.eqb]
@[simp] theorem lit_real (q : Rat) : (FP.lit q : ℝ) = (q : ℝ) := rfl
@[simp] theorem sqrt_real (a : ℝ) : FP.sqrt a = Real.sqrt a := rfl
@[simp] theorem exp_real (a : ℝ) : FP.exp a = Real.exp a := rfl
@[simp] theorem log_real (a : ℝ) : FP.log a = Real.log a := rfl
@[simp] theorem pi_real : (FP.pi : ℝ) = Real.pi := rfl
@[simp] theorem erfc_real (a : ℝ) : FP.erfc a = realErfc a := rfl
@[simp] theorem fabs_real (a : ℝ) : FP.fabs a = |a| := rfl
@[simp] theorem hypot_real (a b : ℝ) : FP.hypot a b = Real.sqrt (a ^ 2 + b ^ 2) := rfl
@[simp] theorem fmax_real (a b : ℝ) : FP.fmax a b = max a b := rfl
@[simp] theorem isInf_real (a : ℝ) : FP.isInf a = false := rfl
@[simp] theorem ofIndex_real (i : Int) : (FP.ofIndex i : ℝ) = (i : ℝ) := rfl

/-- The operations inherited from the class are the operations of the reals. -/
theorem add_real (a b : ℝ) : @HAdd.hAdd ℝ ℝ ℝ (@instHAdd ℝ FP.toAdd) a b = a + b := rfl
theorem zero_real : @OfNat.ofNat ℝ 0 (@Zero.toOfNat0 ℝ FP.toZero) = (0 : ℝ) := rfl

end NNTile
