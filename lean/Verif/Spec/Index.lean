import Mathlib.Algebra.BigOperators.Group.List.Basic
/-!
# Specification of multi-indices and column-major order

Independent of the code: what "an index of a shape", "column-major position", "tile of an element" mean.
-/
namespace NNTile

/-- `InBox shape idx`: `idx` has as many entries as `shape` and `idx[i] < shape[i]` for all `i`. -/
def InBox : List Nat → List Nat → Prop
  | [], [] => True
  | s :: ss, i :: is => i < s ∧ InBox ss is
  | _, _ => False

instance InBox.decidable : (s i : List Nat) → Decidable (InBox s i)
  | [], [] => inferInstanceAs (Decidable True)
  | _ :: ss, _ :: is => @instDecidableAnd _ _ _ (InBox.decidable ss is)
  | [], _ :: _ => inferInstanceAs (Decidable False)
  | _ :: _, [] => inferInstanceAs (Decidable False)

/-- All extents are positive. -/
def Pos (l : List Nat) : Prop := ∀ x ∈ l, 0 < x

instance (l : List Nat) : Decidable (Pos l) := inferInstanceAs (Decidable (∀ x ∈ l, 0 < x))

/-- Column-major (Fortran) position: `idx[0] + shape[0]*(idx[1] + shape[1]*(idx[2] + ...))`. -/
def lin : List Nat → List Nat → Nat
  | s :: ss, i :: is => i + s * lin ss is
  | _, _ => 0

/-- The index at a column-major position. -/
def unlin : List Nat → Nat → List Nat
  | [], _ => []
  | s :: ss, k => k % s :: unlin ss (k / s)

/-- Number of tiles per dimension: `ceil(shape[i] / basetile[i])` written as in the code. -/
def gridOf : List Nat → List Nat → List Nat
  | s :: ss, b :: bs => ((s - 1) / b + 1) :: gridOf ss bs
  | _, _ => []

/-- Index of the tile containing element `idx`: `idx[i] / basetile[i]`. -/
def tileIdx : List Nat → List Nat → List Nat
  | b :: bs, i :: is => i / b :: tileIdx bs is
  | _, _ => []

/-- Position of element `idx` inside of its tile: `idx[i] % basetile[i]`. -/
def locIdx : List Nat → List Nat → List Nat
  | b :: bs, i :: is => i % b :: locIdx bs is
  | _, _ => []

/-- Global index of local position `l` of tile `t`: `t[i]*basetile[i] + l[i]`. -/
def globIdx : List Nat → List Nat → List Nat → List Nat
  | b :: bs, t :: ts, l :: ls => (t * b + l) :: globIdx bs ts ls
  | _, _, _ => []

/-- Shape of the tile `t`: `min(basetile[i], shape[i] - t[i]*basetile[i])`. -/
def tileShape : List Nat → List Nat → List Nat → List Nat
  | s :: ss, b :: bs, t :: ts => min b (s - t * b) :: tileShape ss bs ts
  | _, _, _ => []

/-- `∑ idx[k]*stride[k]`. -/
def dot : List Nat → List Nat → Nat
  | d :: ds, i :: is => i * d + dot ds is
  | _, _ => 0

/-- `a[k] + b[k]`. -/
def addIdx : List Nat → List Nat → List Nat
  | a :: as, b :: bs => (a + b) :: addIdx as bs
  | _, _ => []

/-- Strides starting from `p`: `p, p*s0, p*s0*s1, ...` (one per dimension). Column-major strides of a shape are `strideFrom 1 shape`. -/
def strideFrom (p : Nat) : List Nat → List Nat
  | [] => []
  | s :: ss => p :: strideFrom (p * s) ss

/-- `a[k] + i[k] = b[k] + j[k]` for all `k`: element `i` of an array placed at offset `a` and element `j` of an array placed at offset `b`
are at the same place. -/
def SamePlace : List Int → List Nat → List Int → List Nat → Prop
  | a :: as, i :: is, b :: bs, j :: js => a + (i : Int) = b + (j : Int) ∧ SamePlace as is bs js
  | [], [], [], [] => True
  | _, _, _, _ => False

end NNTile
