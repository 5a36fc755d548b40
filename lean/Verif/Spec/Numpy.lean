import Verif.Model.Numpy
import Verif.Spec.Ops
/-!
# Numpy arrays
-/
namespace NNTile
variable {α : Type}

/-- The array has the shape of the tensor (an array with one element for a 0-dimensional tensor), and memory for all of its elements. -/
def NpArray.Fits (a : NpArray α) (T : Tensor) : Prop := a.shape = (if T.shape = [] then [1] else T.shape) ∧ a.data.size = a.shape.prod

/-- `a[I] = x I` for all indices `I` (Fortran order: the first index is the fastest). -/
def NpArray.Holds (a : NpArray α) (x : List Nat → α) : Prop := ∀ I, InBox a.shape I → a.data.data (lin a.shape I) = some (x I)

/-- The index in the tensor of the element `I` of the array: the same index, except for 0-dimensional tensors. -/
def npIndex (T : Tensor) (I : List Nat) : List Nat := if T.shape = [] then [] else I

end NNTile
