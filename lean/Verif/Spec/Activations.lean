import Mathlib.MeasureTheory.Integral.IntervalIntegral.Basic
import Mathlib.MeasureTheory.Measure.Lebesgue.Basic
import Mathlib.Analysis.SpecialFunctions.Trigonometric.Basic
/-!
# The activation functions
-/
namespace NNTile
noncomputable section

/-- Error function. -/
def erfSpec (x : ℝ) : ℝ := 2 / Real.sqrt Real.pi * ∫ t in (0:ℝ)..x, Real.exp (-t ^ 2)

/-- GELU. -/
def geluSpec (x : ℝ) : ℝ := x / 2 * (1 + erfSpec (x / Real.sqrt 2))

/-- The tanh approximation of GELU. -/
def geluTanhSpec (x : ℝ) : ℝ := x / 2 * (1 + Real.tanh (Real.sqrt (2 / Real.pi) * (x + 0.044715 * x ^ 3)))

/-- ReLU. -/
def reluSpec (x : ℝ) : ℝ := max x 0

end
end NNTile
