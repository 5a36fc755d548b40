import Verif.Spec.XReal
import Verif.Model.Normal
import Mathlib.Logic.Function.Iterate
import Mathlib.Analysis.SpecialFunctions.Trigonometric.Basic
/-! Specification of normally distributed numbers. -/
namespace NNTile
noncomputable section

/-- `std::cos`: NaN for infinities. -/
def XReal.cos : XReal → XReal
  | .fin a => .fin (Real.cos a)
  | _ => .nan

/-- The value is a real number (neither infinity nor NaN). -/
def XReal.IsFin (v : XReal) : Prop := ∃ r, v = .fin r

/-- State of the generator before draw number `n` of the stream: the linear congruential sequence `x ↦ 6364136223846793005 x + 1` modulo `2^64`. -/
def drawState (seed : Seed) (n : Nat) : Seed := (fun x : Seed => 6364136223846793005#64 * x + 1#64)^[n] seed

/-- The constant of the code. -/
def twoPiLit : ℝ := 62831853071795864769252867663 / 10 ^ 28

/-- Box-Muller transformation of the numbers `u`, `v` of the unit interval. -/
def boxMullerSpec (mean stddev u v : ℝ) : ℝ := mean + stddev * (Real.sqrt (-2 * Real.log u) * Real.cos (twoPiLit * v))

/-- The number of the unit interval which belongs to a state. -/
def unitOf (x : Seed) : ℝ := x.toNat / 2 ^ 64

/-- The operation `tensor::randn_async` with its concrete numbers. -/
def normalOf (mean stddev : ℝ) : XReal → XReal → XReal := boxMuller XReal.cos (.fin mean) (.fin stddev)

end
end NNTile
