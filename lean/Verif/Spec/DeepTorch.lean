import Verif.Model.DeepTorch
import Verif.Spec.DeepModels
import Verif.Spec.Torch
/-!
# The MLPs of PyTorch

A PyTorch MLP is `torch.nn.Sequential` of linear layers with `torch.nn.ReLU` between them. `torch.nn.Linear` keeps a weight of shape (outputs, inputs) and a bias (or none). `parameters()` lists
weight and bias of each layer in the order of the layers.
-/
namespace NNTile
open Finset

/-- Weight and bias of a linear layer of PyTorch. -/
structure TorchLin (P : Type) where
  w : P
  b : Option P

/-- Layers which are followed by ReLU, and the last layer. -/
structure DeepP (P : Type) where
  hidden : List (TorchLin P)
  last : TorchLin P

/-- `parameters()` of a layer and of the model. -/
def TorchLin.toList {P : Type} (a : TorchLin P) : List P := a.w :: a.b.toList
def DeepP.toList {P : Type} (d : DeepP P) : List P := (d.hidden ++ [d.last]).flatMap TorchLin.toList

/-- The arrays are those of a layer with `k` inputs, `o` outputs, with bias or without, and the given elements. -/
def TorchLin.IsTorch {α : Type} (a : TorchLin (NdArray α)) (bias : Bool) (o k : Nat) (t : TorchLin (List Nat → α)) : Prop :=
  a.w.Is [o, k] t.w ∧ a.b.isSome = bias ∧ Option.Rel (fun a x => a.Is [o] x) a.b t.b

/-- Layers with `width` outputs; the first one has `k` inputs, the others have `width` inputs. -/
def HiddenTorch {α : Type} (bias : Bool) (width : Nat) : Nat → List (TorchLin (NdArray α)) → List (TorchLin (List Nat → α)) → Prop
  | _, [], [] => True
  | k, a :: as, t :: ts => a.IsTorch bias width k t ∧ HiddenTorch bias width width as ts
  | _, _, _ => False

/-- A PyTorch MLP with `q` inputs, `width` values in all hidden layers, and `C` outputs. -/
def DeepP.IsTorch {α : Type} (a : DeepP (NdArray α)) (bias : Bool) (q width C : Nat) (t : DeepP (List Nat → α)) : Prop :=
  HiddenTorch bias width q a.hidden t.hidden ∧ a.last.IsTorch bias C width t.last

/-- Shapes of the parameters of a layer with `k` inputs and `o` outputs; of `n` layers with `width` outputs of which the first has `k` inputs; of an MLP with `n` hidden layers. -/
def linShapes (bias : Bool) (o k : Nat) : List (List Nat) := [o, k] :: if bias then [[o]] else []
def hiddenShapes (bias : Bool) (width : Nat) : Nat → Nat → List (List Nat)
  | _, 0 => []
  | k, n + 1 => linShapes bias width k ++ hiddenShapes bias width width n
def deepShapes (bias : Bool) (q width C n : Nat) : List (List Nat) := hiddenShapes bias width q n ++ linShapes bias C width

noncomputable section

/-- `torch.nn.Linear` with `k` inputs: element of the batch, output. -/
def torchAffine (k : Nat) (t : TorchLin (List Nat → ℝ)) (x : Nat → Nat → ℝ) (b o : Nat) : ℝ := ∑ i ∈ range k, x b i * t.w [o, i] + (t.b.elim 0 fun c => c [o])

/-- Linear layers, each followed by ReLU. -/
def torchHidden (width : Nat) : Nat → List (TorchLin (List Nat → ℝ)) → (Nat → Nat → ℝ) → Nat → Nat → ℝ
  | _, [], x => x
  | k, t :: ts, x => torchHidden width width ts fun b o => max (torchAffine k t x b o) 0

/-- The output of the MLP: element of the batch, class. -/
def torchDeep (q width : Nat) (t : DeepP (List Nat → ℝ)) (x : Nat → Nat → ℝ) : Nat → Nat → ℝ := torchAffine width t.last (torchHidden width q t.hidden x)

/-- The MLP of GPT2 in PyTorch: `Conv1D`, an activation function, `Conv1D`. `Conv1D` keeps a weight of shape (inputs, outputs). The input has one vector of `E` elements for each index `J`. -/
def torchGptMlp (E inner : Nat) (phi : ℝ → ℝ) (w1 b1 w2 b2 : List Nat → ℝ) (x : List Nat → Nat → ℝ) (J : List Nat) (o : Nat) : ℝ :=
  ∑ h ∈ range inner, phi (∑ i ∈ range E, x J i * w1 [i, h] + b1 [h]) * w2 [h, o] + b2 [o]

end
end NNTile
