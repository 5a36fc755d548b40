import Verif.Model.Linear
import Verif.Spec.Layer
import Verif.Spec.Gemm
/-!
# Meaning of the linear layer

`y` has the dimensions `M ++ N`. For `side = 'L'` the layer computes `y = op(x) * w + b` with `op(x)` of dimensions `M ++ K`, `w` of dimensions `K ++ N`, and the
bias added along the dimension `N`; for `side = 'R'` it computes `y = w * op(x) + b` with `w` of dimensions `M ++ K`, `op(x)` of dimensions `K ++ N` and the
bias added along the dimension `M`.
-/
namespace NNTile
open Finset

/-- The shapes (or tilings) `x`, `w`, `y` fit. -/
def LinearDims (side : Side) (tx : TransOp) (x w y M K N : List Nat) : Prop :=
  match side with
  | .L => x = opCat tx M K [] ∧ w = K ++ N ∧ y = M ++ N
  | .R => w = M ++ K ∧ x = opCat tx K N [] ∧ y = M ++ N

/-- The dimension along which the bias is added. -/
def Side.biasDim (side : Side) (M N : List Nat) : List Nat :=
  match side with
  | .L => N
  | .R => M

/-- The layer is consistent: shapes and tilings of `x`, `w`, `y`, `b` fit, a gradient has the shape and tiling of its value. -/
structure Linear.Fits (l : Linear) (M K N : List Nat) : Prop where
  ndim : l.ndim = K.length
  shape : LinearDims l.side l.transX l.x.value.shape l.w.value.shape l.y.value.shape M K N
  tile : ∃ M' K' N', K'.length = K.length ∧
    LinearDims l.side l.transX l.x.value.basetile l.w.value.basetile l.y.value.basetile M' K' N' ∧
    ∀ b ∈ l.b, b.value.basetile = l.side.biasDim M' N' ∧ b.grad.basetile = b.value.basetile
  bias : ∀ b ∈ l.b, (l.side.biasDim M N).length = 1 ∧ b.value.shape = l.side.biasDim M N ∧ b.grad.shape = b.value.shape
  grads : ∀ m ∈ [l.x, l.w, l.y], m.grad.shape = m.value.shape ∧ m.grad.basetile = m.value.basetile

/-- The values of the output, `m` is the number of dimensions `M`. Without bias take `b = 0`. -/
noncomputable def linearOut (side : Side) (tx : TransOp) (m : Nat) (K : List Nat) (x w b : List Nat → ℝ) (Z : List Nat) : ℝ :=
  match side with
  | .L => ∑ k ∈ box K, x (opCat tx (Z.take m) k []) * w (k ++ Z.drop m) + b (Z.drop m)
  | .R => ∑ k ∈ box K, w (Z.take m ++ k) * x (opCat tx k (Z.drop m) []) + b (Z.take m)

/-- Identities of the gradients the layer has to add to. -/
def Linear.gradIds (l : Linear) : List Nat := l.x.gradIds ++ l.w.gradIds ++ l.b.toList.flatMap Moments.gradIds

end NNTile
