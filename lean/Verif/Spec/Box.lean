import Verif.Spec.Index
import Mathlib.Data.Finset.Image
import Mathlib.Algebra.BigOperators.Group.Finset.Basic
/-!
# The finite set of indices of a shape
-/
namespace NNTile

/-- All indices of an array of shape `S` (`mem_box`: `I ∈ box S ↔ InBox S I`). -/
def box : List Nat → Finset (List Nat)
  | [] => {[]}
  | s :: S => (Finset.range s ×ˢ box S).image (fun p => p.1 :: p.2)

theorem mem_box {S I : List Nat} : I ∈ box S ↔ InBox S I := by
  induction S generalizing I with
  | nil => cases I <;> simp [box, InBox]
  | cons s S ih => cases I with
    | nil => simp [box, InBox]
    | cons i I => simp [box, InBox, ih]

end NNTile
