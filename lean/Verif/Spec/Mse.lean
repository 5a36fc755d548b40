import Verif.Spec.XReal
import Verif.Spec.Ops
import Mathlib.Algebra.BigOperators.Group.Finset.Basic
/-!
# Maximum and sum of exponents

`Mse` is the mathematical object behind a pair `(max, sum of exp(x - max))` of a finite collection of numbers. Merging two collections is addition, and
`Mse` with it is a commutative monoid; the value of a collection is therefore a sum `∑ l, Mse.of (x l)`, in which masked entries count as zero.
`Mse.sum_spec` (in `Verif/Lib/Mse.lean`, restated in `C19_meaning`) says that the components of this sum are what their names say.
-/
namespace NNTile
noncomputable section

/-- `empty`: nothing but masked entries; `pair m s`: maximum and sum of `exp(x - maximum)`. -/
inductive Mse where
  | empty
  | pair (m s : ℝ)

namespace Mse

/-- Merging two collections. -/
def add : Mse → Mse → Mse
  | .empty, b => b
  | a, .empty => a
  | .pair m s, .pair m' s' => .pair (max m m') (s * Real.exp (m - max m m') + s' * Real.exp (m' - max m m'))

/-- One entry; everything that is not a number counts as masked. -/
def of : XReal → Mse
  | .fin a => .pair a 1
  | _ => .empty

/-- How `(max, sum)` is stored in memory: component `0` is the maximum, component `1` is the sum; two zeros if there is nothing. -/
def enc : Mse → Nat → XReal
  | .empty, _ => .fin 0
  | .pair m _, 0 => .fin m
  | .pair _ s, _ => .fin s

/-- The sum is positive (true for every non-empty collection). -/
def Valid : Mse → Prop
  | .empty => True
  | .pair _ s => 0 < s

end Mse
end

/-- `mse` is the tensor of pairs that belongs to the tensor `src` and the axis `a`: a first dimension of size two in one tile, then the dimensions of
`src` without `a`. -/
structure Tensor.MseOf (mse src : Tensor) (a : Nat) : Prop where
  axis : a < src.shape.length
  shape : mse.shape = 2 :: src.shape.eraseIdx a
  basetile : mse.basetile = 2 :: src.basetile.eraseIdx a

/-- A value that the kernels expect: a number or the mask `-inf`. -/
def XReal.NumOrMask (v : XReal) : Prop := v = .ninf ∨ ∃ a, v = .fin a

/-- `exp(v - m)`; a masked entry contributes nothing. -/
noncomputable def expWeight (m : ℝ) : XReal → ℝ
  | .fin a => Real.exp (a - m)
  | _ => 0

/-- `(mx, sm)` are the maximum of the numbers among `r 0, ..., r (n-1)` and the sum of `exp(r l - maximum)` over them; both are zero if all entries are
masked. -/
def IsMaxSumExp (n : Nat) (r : Nat → XReal) (mx sm : XReal) : Prop :=
  ((∀ l, l < n → r l = .ninf) ∧ mx = .fin 0 ∧ sm = .fin 0) ∨
  ∃ m, mx = .fin m ∧ (∃ l, l < n ∧ r l = .fin m) ∧ (∀ l a, l < n → r l = .fin a → a ≤ m) ∧ sm = .fin (∑ l ∈ Finset.range n, expWeight m (r l))

end NNTile
