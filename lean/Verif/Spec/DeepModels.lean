import Verif.Model.DeepModels
import Verif.Spec.BaseModel
/-!
# What `DeepReLU`, `DeepLinear` and `GPT2MLP` mean
-/
namespace NNTile
open Finset
noncomputable section

/-- Tensors which can be given to a model: well formed, with a gradient like the value (if there is one). -/
def Moments.Usable (m : Moments) : Prop := m.value.WF ∧ m.grad.shape = m.value.shape ∧ m.grad.basetile = m.value.basetile

/-- The bias, zero without bias. -/
def biasValue (b : Option Moments) (env : Env) : List Nat → ℝ := match b with
  | some m => env m.value.id
  | none => 0

/-- Number of dimensions of the output of a linear layer with input shape `X` and output features `S` which belong to its left factor. -/
def headDims (side : Side) (n : Nat) (X S : List Nat) : Nat := match side with
  | .L => X.length - n
  | .R => S.length

/-- The shape of the output of a linear layer: the `n` features dimensions, the last (`'L'`) or first (`'R'`) ones, of the input are replaced by `S`. -/
def outShape (side : Side) (n : Nat) (X S : List Nat) : List Nat := match side with
  | .L => X.take (X.length - n) ++ S
  | .R => S ++ X.drop n

/-- The features dimensions of the input. -/
def inFeatures (side : Side) (n : Nat) (X : List Nat) : List Nat := match side with
  | .L => X.drop (X.length - n)
  | .R => X.take n

/-- Linear layers with weights and biases `ps`, each followed by the function `phi`; the first one sums over the dimensions `K`, the others over `width` features. -/
def hiddenOut (side : Side) (m width : Nat) (phi : ℝ → ℝ) : List Nat → (List Nat → ℝ) → List ((List Nat → ℝ) × (List Nat → ℝ)) → List Nat → ℝ
  | _, h, [] => h
  | K, h, p :: ps => hiddenOut side m width phi [width] (fun I => phi (linearOut side .noTrans m K h p.1 p.2 I)) ps

/-- The layers above followed by a linear layer. -/
def deepOut (side : Side) (m width : Nat) (phi : ℝ → ℝ) (K : List Nat) (x : List Nat → ℝ) (ps : List ((List Nat → ℝ) × (List Nat → ℝ)))
    (last : (List Nat → ℝ) × (List Nat → ℝ)) : List Nat → ℝ :=
  linearOut side .noTrans m [width] (hiddenOut side m width phi K x ps) last.1 last.2

/-- Weight and bias of a linear layer as parameters and their contents. -/
def paramsOf (p : Moments × Option Moments) : List Moments := p.1 :: p.2.toList
def valuesOf (env : Env) (p : Moments × Option Moments) : (List Nat → ℝ) × (List Nat → ℝ) := (env p.1.value.id, biasValue p.2 env)

/-- Shapes of the weight and of the bias (if there is one) of a linear layer which makes features `S` of features `K`. -/
def LinearShapes (side : Side) (K S : List Nat) (p : Moments × Option Moments) : Prop :=
  p.1.value.shape = (match side with | .L => K ++ S | .R => S ++ K) ∧ ∀ m ∈ p.2, m.value.shape = S

/-- The same for several layers; the first one gets features `K`, the others `width` features. -/
def HiddenShapes (side : Side) (width : Nat) : List Nat → List (Moments × Option Moments) → Prop
  | _, [] => True
  | K, p :: ps => LinearShapes side K [width] p ∧ HiddenShapes side width [width] ps

/-- A layer without temporary tensors whose forward propagation is defined for all contents. -/
def PyLayer.Plain (l : PyLayer ℝ) : Prop := ∀ asIdx invalidate, (l.toNet asIdx invalidate).temps = [] ∧ ∀ env, (l.toNet asIdx invalidate).Valid env

end
end NNTile
