import Verif.Spec.Network
import Verif.Spec.CrossEntropy
import Verif.Spec.Mse
import Verif.Model.Loss
/-!
# Loss functions
-/
namespace NNTile
open Finset
noncomputable section

/-- `g` is the gradient of the function `f` of a tensor of shape `S` at the point `x`: along each differentiable curve through `x` with velocity `h` the derivative
of `f` is `⟨g, h⟩`. -/
def IsLossGrad (S : List Nat) (f : (List Nat → ℝ) → ℝ) (x g : List Nat → ℝ) : Prop :=
  ∀ (c : ℝ → List Nat → ℝ) (h : List Nat → ℝ), c 0 = x → (∀ I ∈ box S, HasDerivAt (fun t => c t I) (h I) 0) →
    HasDerivAt (fun t => f (c t)) (∑ I ∈ box S, g I * h I) 0

/-- A loss function with its meaning. -/
structure NetLoss where
  /-- the output of the network: value read, gradient written -/
  x : Moments
  /-- what the output is compared with -/
  y : Tensor
  /-- the value of the loss -/
  val : Tensor
  temps : List Tensor
  /-- `calc_async` -/
  run : M (List (Task1 ℝ))
  /-- the meaning: a function of the contents of `y` and of the output -/
  f : (List Nat → ℝ) → (List Nat → ℝ) → ℝ
  /-- contents of `y` for which it is defined -/
  Valid : (List Nat → ℝ) → Prop
  /-- the value is added to `val` (it replaces the contents of `val` otherwise) -/
  accumulates : Bool

/-- The loss function computes what it means: `calc_async` puts (or adds) the value to `val`, overwrites the gradient of the output by the gradient of the loss,
whatever it contained, and changes nothing else (except temporary tensors). -/
def NetLoss.Correct (l : NetLoss) : Prop :=
  ∀ (s : Store ℝ) (X Y : List Nat → ℝ) (v : ℝ), l.x.value.Ready s → l.x.value.Holds s X → l.y.Ready s → l.y.Holds s Y → l.Valid Y →
    l.x.grad.Ready s → l.val.Ready s → (l.accumulates = true → l.val.Holds s (fun _ => v)) → AllReady l.temps s →
    Runs l.run s (l.val.id :: l.x.grad.id :: l.temps.map Tensor.id) (fun s' =>
      l.val.Holds s' (fun _ => (if l.accumulates then v else 0) + l.f Y X) ∧ l.val.Ready s' ∧
      (∃ g, l.x.grad.Holds s' g ∧ IsLossGrad l.x.value.shape (l.f Y) X g) ∧ l.x.grad.Ready s' ∧ AllReady l.temps s')

/-- All tensors of the loss function. -/
def NetLoss.tensors (l : NetLoss) : List Tensor := [l.x.value, l.x.grad, l.y, l.val] ++ l.temps

/-! ### Frobenius norm -/

/-- `1/2 ‖X - Y‖²`. -/
def frobLoss (S : List Nat) (Y X : List Nat → ℝ) : ℝ := 1 / 2 * ∑ I ∈ box S, (X I - Y I) ^ 2

def Frob.toNet (l : Frob) : NetLoss where
  x := l.x
  y := l.y
  val := l.val
  temps := [l.valSqrt, l.tmp]
  run := l.calcAsync
  f := frobLoss l.x.value.shape
  Valid := fun _ => True
  accumulates := false

/-- The tensors of the loss function fit. -/
structure Frob.Fits (l : Frob) : Prop where
  ids : (l.toNet.tensors.map Tensor.id).Nodup
  grad : l.x.grad.shape = l.x.value.shape ∧ l.x.grad.basetile = l.x.value.basetile
  y : l.y.shape = l.x.value.shape ∧ l.y.basetile = l.x.value.basetile
  val : l.val.shape = []
  valSqrt : l.valSqrt.shape = []
  tmp : l.tmp.shape = l.x.value.grid ∧ ∀ i, i < l.x.value.ndim → l.tmp.basetile.getD i 0 = 1

/-! ### Cross entropy -/

/-- `scale * Σ_J (log(Σ_c exp X[c, J]) - X[Y[J], J])`. -/
def ceLoss (asIdx : ℝ → Int) (S : List Nat) (n : Nat) (scale : ℝ) (Y X : List Nat → ℝ) : ℝ :=
  scale * ∑ J ∈ box S, (Real.log (∑ c ∈ range n, Real.exp (X (c :: J))) - X ((asIdx (Y J)).toNat :: J))

def CrossEntropy.toNet (asIdx : ℝ → Int) (l : CrossEntropy ℝ) : NetLoss where
  x := l.modelOutput
  y := l.y
  val := l.val
  temps := [l.maxsumexp, l.logsumexp]
  run := l.calcAsync asIdx
  f := ceLoss asIdx l.y.shape (l.modelOutput.value.shape.headD 0) l.scale
  Valid := LabelsOk l.y (l.modelOutput.value.shape.headD 0) asIdx
  accumulates := true

/-- The tensors of the loss function fit: the output has one dimension of `n` classes, in one tile, and the dimensions of the labels. -/
structure CrossEntropy.Fits (l : CrossEntropy ℝ) (n : Nat) : Prop where
  ids : ([l.modelOutput.value, l.modelOutput.grad, l.y, l.val, l.maxsumexp, l.logsumexp].map Tensor.id).Nodup
  out : LabelFit l.y l.modelOutput.value n
  grad : l.modelOutput.grad.shape = l.modelOutput.value.shape ∧ l.modelOutput.grad.basetile = l.modelOutput.value.basetile
  maxsumexp : l.maxsumexp.shape = 2 :: l.y.shape ∧ l.maxsumexp.basetile = 2 :: l.y.basetile
  logsumexp : l.logsumexp.shape = l.y.shape ∧ l.logsumexp.basetile = l.y.basetile
  val : l.val.shape = []

end
end NNTile
