import Verif.Model.Core
import Mathlib.Algebra.Group.Defs
/-!
# Scalar arithmetic of the kernels

`FP α` lists the operations that the kernels use on their floating point type `T`. No law is assumed, so a theorem stated over an
arbitrary `FP α` holds in particular for IEEE arithmetic, bit by bit. `Verif/Spec/RealFP.lean` gives the instance over the reals.
-/
namespace NNTile

/-- Operations on the scalar type `T` of the kernels: C++ operators and functions of `<cmath>`. -/
class FP (α : Type) extends Add α, Sub α, Mul α, Div α, Neg α, Zero α, One α where
  /-- `a == b` -/
  eqb : α → α → Bool
  /-- `a < b` -/
  ltb : α → α → Bool
  /-- a literal such as `0.044715` -/
  lit : Rat → α
  /-- the literal `3.141592653589793238462643383279502884L`; exact pi in the instance over the reals -/
  pi : α
  /-- implicit conversion of an `Index` to `T` -/
  ofIndex : Int → α
  /-- implicit conversion of a `T` to an `Index` (truncation towards zero) -/
  toIndex : α → Int
  sqrt : α → α
  exp : α → α
  log : α → α
  erfc : α → α
  fabs : α → α
  pow : α → α → α
  hypot : α → α → α
  fmax : α → α → α
  isInf : α → Bool

end NNTile
