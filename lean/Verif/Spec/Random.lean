import Verif.Model.Rng
import Mathlib.Logic.Function.Iterate
/-! Specification of the stream of normal numbers. -/
namespace NNTile

/-- The `k`-th normal number of the stream with the given seed: draws number `2k` and `2k+1` of the uniform generator (which advances
by `rndStep`) are combined by `normal`. -/
def nthNormal {α υ : Type _} (uniform : Seed → υ) (normal : υ → υ → α) (seed : Seed) (k : Nat) : α :=
  normal (uniform (rndStep^[2 * k] seed)) (uniform (rndStep^[2 * k + 1] seed))

end NNTile
