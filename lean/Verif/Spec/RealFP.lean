import Verif.Model.FP
import Mathlib.Analysis.SpecialFunctions.Pow.Real
import Mathlib.MeasureTheory.Integral.IntervalIntegral.Basic
import Mathlib.MeasureTheory.Measure.Lebesgue.Basic
/-!
# Exact real arithmetic as an interpretation of the scalar operations
-/
namespace NNTile
noncomputable section

/-- Complementary error function `1 - 2/sqrt(pi) * ∫_0^x exp(-t^2) dt`. -/
def realErfc (x : ℝ) : ℝ := 1 - 2 / Real.sqrt Real.pi * ∫ t in (0:ℝ)..x, Real.exp (-t ^ 2)

/-- Truncation towards zero. -/
def realTrunc (x : ℝ) : Int := if 0 ≤ x then ⌊x⌋ else ⌈x⌉

/-- The scalar operations over the reals: no rounding, no overflow, no infinities. -/
instance : FP ℝ where
  eqb a b := @decide (a = b) (Classical.propDecidable _)
  ltb a b := @decide (a < b) (Classical.propDecidable _)
  lit q := (q : ℝ)
  pi := Real.pi
  ofIndex i := (i : ℝ)
  toIndex := realTrunc
  sqrt := Real.sqrt
  exp := Real.exp
  log := Real.log
  erfc := realErfc
  fabs x := |x|
  pow x y := x ^ y
  hypot x y := Real.sqrt (x ^ 2 + y ^ 2)
  fmax x y := max x y
  isInf _ := false

end
end NNTile
