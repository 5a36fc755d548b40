import Verif.Spec.Network
import Verif.Spec.Activations
import Verif.Spec.Embedding
import Verif.Spec.Linear
import Verif.Spec.LayerNorm
import Verif.Model.SimpleLayers
/-!
# The layers as parts of networks: which functions they mean
-/
namespace NNTile
open Finset
noncomputable section

/-- Value and gradient have the same shape and tiling as `T`. -/
def Moments.SameAs (m : Moments) (T : Tensor) : Prop :=
  (m.value.shape = T.shape ∧ m.value.basetile = T.basetile) ∧ m.grad.shape = T.shape ∧ m.grad.basetile = T.basetile

/-! ### Activation functions -/

def ActKind.spec : ActKind → ℝ → ℝ
  | .relu => reluSpec
  | .gelu => geluSpec
  | .gelutanh => geluTanhSpec

def Act.Fits (l : Act) : Prop := l.x.SameAs l.x.value ∧ l.y.SameAs l.x.value ∧ l.y.gradRequired = true

/-- The activation function is applied to each element. ReLU is not differentiable at zero. -/
def Act.toNet (l : Act) : NetLayer where
  ins := [l.x]
  out := l.y
  temps := []
  forward := l.forwardAsync
  backward := l.backwardAsync
  F env I := l.kind.spec (env l.x.value.id I)
  Saved _ _ := True
  Valid _ := True
  Regular env := l.kind = .relu → ∀ I ∈ box l.x.value.shape, env l.x.value.id I ≠ 0

/-! ### Addition -/

def AddLayer.Fits (l : AddLayer) : Prop :=
  l.x.SameAs l.x.value ∧ l.y.SameAs l.x.value ∧ l.res.SameAs l.x.value ∧ l.x.gradRequired = true ∧ l.y.gradRequired = true ∧ l.res.gradRequired = true

def AddLayer.toNet (l : AddLayer) : NetLayer where
  ins := [l.x, l.y]
  out := l.res
  temps := []
  forward := l.forwardAsync
  backward := l.backwardAsync
  F env I := env l.x.value.id I + env l.y.value.id I
  Saved _ _ := True
  Valid _ := True
  Regular _ := True

/-! ### Addition of a slice -/

/-- `y` has the dimensions of `x` without the dimension `a`. -/
def AddSliceLayer.Fits (l : AddSliceLayer) (a : Nat) : Prop :=
  l.axis = a ∧ l.x.SameAs l.x.value ∧ l.u.SameAs l.x.value ∧ l.y.value.SliceOf l.x.value a ∧ l.y.grad.SliceOf l.x.value a ∧
    l.x.gradRequired = true ∧ l.y.gradRequired = true ∧ l.u.gradRequired = true

def AddSliceLayer.toNet (l : AddSliceLayer) : NetLayer where
  ins := [l.x, l.y]
  out := l.u
  temps := []
  forward := l.forwardAsync
  backward := l.backwardAsync
  F env I := env l.x.value.id I + env l.y.value.id (I.eraseIdx l.axis.toNat)
  Saved _ _ := True
  Valid _ := True
  Regular _ := True

/-! ### Embedding -/

/-- The tensor of integers has no gradient. -/
def EmbeddingLayer.tokens (l : EmbeddingLayer) : Moments := ⟨l.x, l.x, false⟩

def EmbeddingLayer.Fits (l : EmbeddingLayer) (a : Nat) : Prop :=
  l.axis = a ∧ EmbedFit l.x l.w.value l.y.value a ∧ EmbedFit l.x l.w.grad l.y.grad a ∧ l.w.grad.shape = l.w.value.shape ∧ l.y.grad.shape = l.y.value.shape ∧
    l.w.gradRequired = true ∧ l.y.gradRequired = true

/-- The token at each place is replaced by its vector, given by a column of `w`. All tokens have to be columns of `w`. -/
def EmbeddingLayer.toNet (asIdx : ℝ → Int) (l : EmbeddingLayer) : NetLayer where
  ins := [l.tokens, l.w]
  out := l.y
  temps := []
  forward := l.forwardAsync asIdx
  backward := l.backwardAsync asIdx
  F env I := env l.w.value.id [I.getD l.axis.toNat 0, (asIdx (env l.x.id (I.eraseIdx l.axis.toNat))).toNat]
  Saved _ _ := True
  Valid env := TokensOk l.x l.w.value asIdx (env l.x.id)
  Regular env := TokensOk l.x l.w.value asIdx (env l.x.id)

/-! ### Linear layer -/

/-- The dimensions summed over and the number of dimensions in front of the features. -/
def Linear.dimK (l : Linear) : List Nat := match l.side with
  | .L => l.w.value.shape.take l.ndim.toNat
  | .R => l.w.value.shape.drop (l.w.value.shape.length - l.ndim.toNat)

def Linear.dimM (l : Linear) : Nat := match l.side with
  | .L => l.y.value.shape.length - (l.w.value.shape.length - l.ndim.toNat)
  | .R => l.w.value.shape.length - l.ndim.toNat

def Linear.biasOf (l : Linear) (env : Env) : List Nat → ℝ := match l.b with
  | some b => env b.value.id
  | none => 0

def Linear.toNet (l : Linear) : NetLayer where
  ins := l.x :: l.w :: l.b.toList
  out := l.y
  temps := []
  forward := l.forwardAsync
  backward := l.backwardAsync
  F env := linearOut l.side l.transX l.dimM l.dimK (env l.x.value.id) (env l.w.value.id) (l.biasOf env)
  Saved _ _ := True
  Valid _ := True
  Regular _ := True

/-! ### Layer normalization -/

def LayerNorm.toNet (n : LayerNorm ℝ) (eps : ℝ) (invalidate : Bool) : NetLayer where
  ins := [n.x, n.gamma, n.beta]
  out := n.y
  temps := [n.tmpYValue, n.tmpYGrad, n.mean, n.invStddev]
  forward := n.forwardAsync
  backward := n.backwardAsync invalidate
  F env := lnOut n.axis.toNat n.l eps (env n.gamma.value.id) (env n.beta.value.id) (env n.x.value.id)
  Saved env s := n.tmpYValue.Holds s (lnHat n.axis.toNat n.l eps (env n.x.value.id)) ∧ n.invStddev.Holds s (lnInv n.axis.toNat n.l eps (env n.x.value.id))
  Valid _ := True
  Regular _ := True

end
end NNTile
