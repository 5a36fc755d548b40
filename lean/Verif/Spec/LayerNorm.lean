import Verif.Model.LayerNorm
import Verif.Spec.Layer
import Verif.Spec.RealFP
/-!
# Meaning of the layer normalization

`a` is the normalized dimension, `l` its size. A slice is given by the index `J` of the other dimensions.
-/
namespace NNTile
open Finset

/-- Mean value of a slice. -/
noncomputable def lnMean (a l : Nat) (x : List Nat → ℝ) (J : List Nat) : ℝ := (∑ k ∈ range l, x (J.insertIdx a k)) / l

/-- Variance of a slice. -/
noncomputable def lnVar (a l : Nat) (x : List Nat → ℝ) (J : List Nat) : ℝ := (∑ k ∈ range l, (x (J.insertIdx a k) - lnMean a l x J) ^ 2) / l

/-- Inverse of the (regularized) standard deviation of a slice. -/
noncomputable def lnInv (a l : Nat) (eps : ℝ) (x : List Nat → ℝ) (J : List Nat) : ℝ := 1 / Real.sqrt (lnVar a l x J + eps)

/-- The normalized input. -/
noncomputable def lnHat (a l : Nat) (eps : ℝ) (x : List Nat → ℝ) (I : List Nat) : ℝ :=
  (x I - lnMean a l x (I.eraseIdx a)) * lnInv a l eps x (I.eraseIdx a)

/-- The output: normalized, scaled and shifted. -/
noncomputable def lnOut (a l : Nat) (eps : ℝ) (gamma beta x : List Nat → ℝ) (I : List Nat) : ℝ :=
  gamma [I.getD a 0] * lnHat a l eps x I + beta [I.getD a 0]

/-- The layer is consistent: `axis` is a dimension `a` of `x`, all of the tensors of the shape of `x` are tiled as `x`, `gamma` and `beta` are vectors along
the dimension `a`, `mean` and `inv_stddev` have the other dimensions; the layer was created with the positive regularization `eps`. -/
structure LayerNorm.Fits (n : LayerNorm ℝ) (a : Nat) (eps : ℝ) : Prop where
  axis : n.axis = a
  lt : a < n.x.value.shape.length
  l : n.l = n.x.value.shape.getD a 0
  pos : 0 < eps
  eps : n.eps = eps ^ (1 / 2 : ℝ)
  same : ∀ T ∈ [n.y.value, n.y.grad, n.x.grad, n.tmpYValue, n.tmpYGrad], T.shape = n.x.value.shape ∧ T.basetile = n.x.value.basetile
  fiber : ∀ T ∈ [n.gamma.value, n.gamma.grad, n.beta.value, n.beta.grad], T.FiberOf n.x.value a 0
  slice : ∀ T ∈ [n.mean, n.invStddev], T.SliceOf n.x.value a

/-- The tensors forward propagation works with. -/
def LayerNorm.forwardTensors (n : LayerNorm ℝ) : List Tensor :=
  [n.x.value, n.y.value, n.gamma.value, n.beta.value, n.tmpYValue, n.mean, n.invStddev]

/-- The tensors backward propagation works with. -/
def LayerNorm.backwardTensors (n : LayerNorm ℝ) : List Tensor :=
  [n.y.grad, n.x.grad, n.gamma.value, n.gamma.grad, n.beta.grad, n.tmpYValue, n.tmpYGrad, n.mean, n.invStddev]

end NNTile
