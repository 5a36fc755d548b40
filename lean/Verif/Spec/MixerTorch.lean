import Verif.Model.MixerTorch
import Verif.Spec.Mixer
import Verif.Spec.Torch
/-!
# The MLP mixer of PyTorch, `wrappers/python/nntile/torch_models/mlp_mixer.py`

Its parameters are listed by `parameters()` in the order in which the modules are made: the projection of the patches; for each mixer layer the first normalization (weight, bias), the two
matrices of the MLP over patches, the second normalization, the two matrices of the MLP over elements; the classification. This is the order of `MixP.toList`.
-/
namespace NNTile
open Finset

/-- The arrays have the shapes of a PyTorch mixer layer with `n` patches, vectors of size `E`, and the given elements. `torch.nn.Linear` keeps a matrix of shape (outputs, inputs). -/
structure MixBlockP.IsTorch {α : Type} (a : MixBlockP (NdArray α)) (n E : Nat) (t : MixBlockP (List Nat → α)) : Prop where
  g1 : a.g1.Is [E] t.g1
  b1 : a.b1.Is [E] t.b1
  u1 : a.u1.Is [n * 4, n] t.u1
  u2 : a.u2.Is [n, n * 4] t.u2
  g2 : a.g2.Is [E] t.g2
  b2 : a.b2.Is [E] t.b2
  v1 : a.v1.Is [E * 4, E] t.v1
  v2 : a.v2.Is [E, E * 4] t.v2

/-- The same for the model: patches of `q` elements, `C` classes. -/
structure MixP.IsTorch {α : Type} (a : MixP (NdArray α)) (n q E C : Nat) (t : MixP (List Nat → α)) : Prop where
  w : a.w.Is [E, q] t.w
  blocks : List.Forall₂ (fun a t => a.IsTorch n E t) a.blocks t.blocks
  wc : a.wc.Is [C, E] t.wc

noncomputable section

/-- `torch.nn.Linear(k, ...)` without bias, applied to the last of three dimensions. -/
def torchLinear (k : Nat) (W : List Nat → ℝ) (x : Hidden) : Hidden := fun p b o => ∑ i ∈ range k, x p b i * W [o, i]

/-- `torch.transpose(x, 0, 2)`. -/
def torchSwap (x : Hidden) : Hidden := fun p b e => x e b p

/-- The MLP of `MixerMlp` for vectors of size `k`: linear layer, GELU, linear layer. -/
def torchFn (k : Nat) (W1 W2 : List Nat → ℝ) (x : Hidden) : Hidden :=
  let h := torchLinear k W1 x
  torchLinear (4 * k) W2 (fun p b o => geluSpec (h p b o))

/-- `Mixer.forward`. The normalizations have the default regularization of `torch.nn.LayerNorm`. -/
def torchMixerLayer (n E : Nat) (x : Hidden) (t : MixBlockP (List Nat → ℝ)) : Hidden :=
  let m := torchSwap (torchFn n t.u1 t.u2 (torchSwap (torchNorm E (1 / 100000) t.g1 t.b1 x)))
  let y : Hidden := fun p b e => m p b e + x p b e
  let m' := torchFn E t.v1 t.v2 (torchNorm E (1 / 100000) t.g2 t.b2 y)
  fun p b e => m' p b e + y p b e

/-- `MlpMixer.forward`: element of the batch, class. -/
def torchMixer (n q E : Nat) (t : MixP (List Nat → ℝ)) (x : Hidden) (b c : Nat) : ℝ :=
  let y := t.blocks.foldl (torchMixerLayer n E) (torchLinear q t.w x)
  ∑ e ∈ range E, (∑ p ∈ range n, y p b e) / n * t.wc [c, e]

end

/-- The matrix with rows and columns exchanged. -/
def swap2 {α : Type} (x : List Nat → α) : List Nat → α := fun I => x [I.getD 1 0, I.getD 0 0]

/-- Contents of the parameters of an NNTile model, which is to compute the same. -/
def MixBlockP.toNNTile {α : Type} (t : MixBlockP (List Nat → α)) : MixBlockP (List Nat → α) := ⟨t.g1, t.b1, t.u1, t.u2, t.g2, t.b2, swap2 t.v1, swap2 t.v2⟩

def MixP.toNNTile {α : Type} (t : MixP (List Nat → α)) : MixP (List Nat → α) := ⟨swap2 t.w, t.blocks.map MixBlockP.toNNTile, t.wc⟩

/-- The parameters hold the given contents. -/
def MixP.Hold {α : Type} (p : MixP Moments) (s : Store α) (x : MixP (List Nat → α)) : Prop := List.Forall₂ (fun m x => m.value.Holds s x) p.toList x.toList

end NNTile
