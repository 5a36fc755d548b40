import Verif.Spec.RealFP
/-!
# Real arithmetic with infinities and NaN

The attention mask of NNTile is the value `-inf`, so the functions that treat it need a number type with infinities. `XReal` has the exact
real numbers and the special values of IEEE arithmetic with the IEEE rules for them; there is no rounding and there is only one (positive) zero.
-/
namespace NNTile
noncomputable section

/-- A real number, an infinity or NaN. -/
inductive XReal where
  | fin (r : ℝ)
  | ninf
  | pinf
  | nan

namespace XReal
open Classical

/-- Infinity with the sign of `r`; NaN for zero. -/
def infOf (r : ℝ) : XReal := if 0 < r then pinf else if r < 0 then ninf else nan

def neg : XReal → XReal
  | fin a => fin (-a)
  | ninf => pinf
  | pinf => ninf
  | nan => nan

def add : XReal → XReal → XReal
  | fin a, fin b => fin (a + b)
  | nan, _ => nan
  | _, nan => nan
  | pinf, ninf => nan
  | ninf, pinf => nan
  | pinf, _ => pinf
  | _, pinf => pinf
  | ninf, _ => ninf
  | _, ninf => ninf

def mul : XReal → XReal → XReal
  | fin a, fin b => fin (a * b)
  | nan, _ => nan
  | _, nan => nan
  | fin a, pinf => infOf a
  | pinf, fin a => infOf a
  | fin a, ninf => infOf (-a)
  | ninf, fin a => infOf (-a)
  | pinf, pinf => pinf
  | ninf, ninf => pinf
  | pinf, ninf => ninf
  | ninf, pinf => ninf

def div : XReal → XReal → XReal
  | fin a, fin b => if b = 0 then infOf a else fin (a / b)
  | nan, _ => nan
  | _, nan => nan
  | fin _, _ => fin 0
  | pinf, fin b => if 0 ≤ b then pinf else ninf
  | ninf, fin b => if 0 ≤ b then ninf else pinf
  | _, _ => nan

def eqb : XReal → XReal → Bool
  | fin a, fin b => decide (a = b)
  | pinf, pinf => true
  | ninf, ninf => true
  | _, _ => false

def ltb : XReal → XReal → Bool
  | fin a, fin b => decide (a < b)
  | ninf, fin _ => true
  | ninf, pinf => true
  | fin _, pinf => true
  | _, _ => false

def exp : XReal → XReal
  | fin a => fin (Real.exp a)
  | ninf => fin 0
  | pinf => pinf
  | nan => nan

def log : XReal → XReal
  | fin a => if 0 < a then fin (Real.log a) else if a = 0 then ninf else nan
  | pinf => pinf
  | _ => nan

def sqrt : XReal → XReal
  | fin a => if 0 ≤ a then fin (Real.sqrt a) else nan
  | pinf => pinf
  | _ => nan

def erfc : XReal → XReal
  | fin a => fin (realErfc a)
  | ninf => fin 2
  | pinf => fin 0
  | nan => nan

def fabs : XReal → XReal
  | fin a => fin |a|
  | nan => nan
  | _ => pinf

def isInf : XReal → Bool
  | pinf => true
  | ninf => true
  | _ => false

def hypot (a b : XReal) : XReal :=
  if isInf a || isInf b then pinf else
  match a, b with
  | fin a, fin b => fin (Real.sqrt (a ^ 2 + b ^ 2))
  | _, _ => nan

def fmax : XReal → XReal → XReal
  | nan, b => b
  | a, nan => a
  | a, b => if ltb a b then b else a

/-- `pow` of infinities is not used by any theorem. -/
def pow : XReal → XReal → XReal
  | fin a, fin b => fin (a ^ b)
  | _, _ => nan

instance : FP XReal where
  add := add
  sub a b := add a (neg b)
  mul := mul
  div := div
  neg := neg
  zero := fin 0
  one := fin 1
  eqb := eqb
  ltb := ltb
  lit q := fin q
  pi := fin Real.pi
  ofIndex i := fin i
  toIndex
    | fin a => realTrunc a
    | _ => 0
  sqrt := sqrt
  exp := exp
  log := log
  erfc := erfc
  fabs := fabs
  pow := pow
  hypot := hypot
  fmax := fmax
  isInf := isInf

end XReal
end
end NNTile
