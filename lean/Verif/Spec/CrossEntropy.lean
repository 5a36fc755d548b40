import Verif.Spec.Ops
import Verif.Spec.Box
/-!
# Labels and logits
-/
namespace NNTile

/-- `x` has dimension 0 of size `n` (the classes), in one tile, followed by the dimensions of `labels`, tiled as `labels`. -/
structure LabelFit (labels x : Tensor) (n : Nat) : Prop where
  shape : x.shape = n :: labels.shape
  basetile : x.basetile = n :: labels.basetile

/-- All entries of `labels` are numbers of classes. -/
def LabelsOk (labels : Tensor) (n : Nat) {α : Type} (asIdx : α → Int) (w : List Nat → α) : Prop :=
  ∀ J, InBox labels.shape J → 0 ≤ asIdx (w J) ∧ asIdx (w J) < n

end NNTile
