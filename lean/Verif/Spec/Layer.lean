import Verif.Model.Layer
import Verif.Spec.Ops
import Verif.Spec.Box
import Mathlib.Analysis.Calculus.Deriv.Basic
/-!
# How results of layers are stated
-/
namespace NNTile
open Finset

/-- The asynchronous method returns without exception, all of the tasks it submitted can be executed without undefined behaviour, nothing but
the tensors with identities `ids` is changed and `P` holds afterwards. (By C26 the same holds for every schedule.) -/
def Runs {α : Type} (async : M (List (Task1 α))) (s : Store α) (ids : List Nat) (P : Store α → Prop) : Prop :=
  ∃ tasks s', async = .ok tasks ∧ runAll1 tasks s = .ok s' ∧ OnlyChanged ids s s' ∧ P s'

/-- `g` is the gradient, at the point `x` (a tensor of shape `Sx`), of the function `x ↦ ⟨dy, F x⟩` where `F` maps tensors of shape `Sx` to
tensors of shape `Sy`: in each direction `h` the derivative is `⟨g, h⟩`. This is what backpropagation has to compute: `g` is the transposed
Jacobian of `F` at `x` applied to `dy`. -/
def IsGrad (Sx Sy : List Nat) (F : (List Nat → ℝ) → List Nat → ℝ) (x dy g : List Nat → ℝ) : Prop :=
  ∀ h : List Nat → ℝ,
    HasDerivAt (fun t : ℝ => ∑ I ∈ box Sy, dy I * F (fun J => x J + t * h J) I) (∑ J ∈ box Sx, g J * h J) 0

/-- Gradients which a layer has to add to. -/
def Moments.gradIds (m : Moments) : List Nat := if m.gradRequired then [m.grad.id] else []

/-- If the gradient is required, it is a tensor like the value and holds `g`. -/
def Moments.GradHolds (m : Moments) (s : Store ℝ) (g : List Nat → ℝ) : Prop :=
  m.gradRequired = true → m.grad.Ready s ∧ m.grad.Holds s g

end NNTile
