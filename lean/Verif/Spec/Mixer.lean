import Verif.Model.Mixer
import Verif.Spec.NetLayers
import Verif.Spec.DeepModels
/-!
# What the layers of `MlpMixer` and the model mean

Indices of activations: `p` of the patch, `b` of the batch, `e` of the vector which describes the patch.
-/
namespace NNTile
open Finset
noncomputable section

/-! ### The formulas -/

/-- The parameters of a mixer layer: the tensors (`P = Moments`) or their contents. In this order they are in the list of parameters of the model. -/
structure MixBlockP (P : Type) where
  /-- The first normalization. -/
  g1 : P
  b1 : P
  /-- The MLP which mixes the patches. -/
  u1 : P
  u2 : P
  /-- The second normalization. -/
  g2 : P
  b2 : P
  /-- The MLP which mixes the elements of the vectors. -/
  v1 : P
  v2 : P

def MixBlockP.toList {P : Type} (p : MixBlockP P) : List P := [p.g1, p.b1, p.u1, p.u2, p.g2, p.b2, p.v1, p.v2]

def MixBlockP.map {P R : Type} (f : P → R) (p : MixBlockP P) : MixBlockP R := ⟨f p.g1, f p.b1, f p.u1, f p.u2, f p.g2, f p.b2, f p.v1, f p.v2⟩

/-- Shapes of the parameters of a mixer layer for `n` patches and vectors of size `E`. -/
def MixBlockP.Shapes (n E : Nat) (p : MixBlockP Moments) : Prop :=
  p.toList.map (fun m => m.value.shape) = [[E], [E], [n * 4, n], [n, n * 4], [E], [E], [E, E * 4], [E * 4, E]]

/-- All parameters. -/
structure MixP (P : Type) where
  w : P
  blocks : List (MixBlockP P)
  wc : P

def MixP.toList {P : Type} (p : MixP P) : List P := p.w :: (p.blocks.flatMap MixBlockP.toList ++ [p.wc])

def MixP.map {P R : Type} (f : P → R) (p : MixP P) : MixP R := ⟨f p.w, p.blocks.map (MixBlockP.map f), f p.wc⟩

/-- Scale and shift of the normalizations of a layer. -/
def MixBlockP.norms {P : Type} (p : MixBlockP P) : List (P × P) := [(p.g1, p.b1), (p.g2, p.b2)]

/-- Scale and shift of all normalizations. -/
def MixP.norms {P : Type} (p : MixP P) : List (P × P) := p.blocks.flatMap MixBlockP.norms

/-- Shapes of the parameters for `n` patches of `q` elements, vectors of size `E` and `C` classes. -/
def MixP.Shapes (n q E C : Nat) (p : MixP Moments) : Prop :=
  p.w.value.shape = [q, E] ∧ (∀ b ∈ p.blocks, b.Shapes n E) ∧ p.wc.value.shape = [C, E]

/-- Each vector is multiplied by the matrix `w`: the projection of the patches. -/
def mixProject (q : Nat) (w x : List Nat → ℝ) : List Nat → ℝ
  | [p, b, e] => ∑ k ∈ range q, x [p, b, k] * w [k, e]
  | _ => 0

/-- The MLP over patches: `U₂ gelu(U₁ x)` for each element of the batch and of the vectors. -/
def mixTokens (n : Nat) (u1 u2 x : List Nat → ℝ) : List Nat → ℝ
  | [p, b, e] => ∑ h ∈ range (n * 4), u2 [p, h] * geluSpec (∑ k ∈ range n, u1 [h, k] * x [k, b, e])
  | _ => 0

/-- The MLP over elements of vectors: `gelu(x V₁) V₂` for each patch and element of the batch. -/
def mixChannels (E : Nat) (v1 v2 x : List Nat → ℝ) : List Nat → ℝ
  | [p, b, e] => ∑ h ∈ range (E * 4), geluSpec (∑ k ∈ range E, x [p, b, k] * v1 [k, h]) * v2 [h, e]
  | _ => 0

/-- The regularization of the normalizations. -/
def mixEps : ℝ := 1 / 100000

/-- A mixer layer: both MLPs are applied to the normalized argument, with a residual connection. -/
def mixBlockOut (n E : Nat) (x : List Nat → ℝ) (p : MixBlockP (List Nat → ℝ)) : List Nat → ℝ :=
  let y := fun I => x I + mixTokens n p.u1 p.u2 (lnOut 2 E mixEps p.g1 p.b1 x) I
  fun I => y I + mixChannels E p.v1 p.v2 (lnOut 2 E mixEps p.g2 p.b2 y) I

/-- The mean value over the patches, and the classification. -/
def mixClassify (n E : Nat) (wc x : List Nat → ℝ) : List Nat → ℝ
  | [c, b] => ∑ e ∈ range E, wc [c, e] * ((∑ p ∈ range n, x [p, b, e]) / n)
  | _ => 0

/-- The output of the model for `n` patches of `q` elements, vectors of size `E`. -/
def mixOut (n q E : Nat) (p : MixP (List Nat → ℝ)) (x : List Nat → ℝ) : List Nat → ℝ :=
  mixClassify n E p.wc (p.blocks.foldl (mixBlockOut n E) (mixProject q p.w x))

/-! ### The layers as parts of networks -/

/-- A layer whose output is increased by the tensor `x`, in place. -/
def NetLayer.withResidual (l : NetLayer) (x : Moments) : NetLayer where
  ins := l.ins ++ [x]
  out := l.out
  temps := l.temps
  forward := seqAsync [l.forward, addAsync 1 x.value 1 l.out.value]
  backward := seqAsync [l.backward, addAsync 1 l.out.grad 1 x.grad]
  F env I := l.F env I + env x.value.id I
  Saved := l.Saved
  Valid := l.Valid
  Regular := l.Regular

/-- Tensors of `GAP`: `yT` has the dimensions of `x` without the first one, `y` is its transpose. -/
structure GapLayer.Fits (l : GapLayer) : Prop where
  shape : ∃ n b e, l.x.value.shape = [n, b, e] ∧ l.yT.value.shape = [b, e] ∧ l.y.value.shape = [e, b]
  tile : ∃ n b e, l.x.value.basetile = [n, b, e] ∧ l.yT.value.basetile = [b, e] ∧ l.y.value.basetile = [e, b]
  grads : ∀ m ∈ [l.x, l.yT, l.y], m.grad.shape = m.value.shape ∧ m.grad.basetile = m.value.basetile
  required : l.x.gradRequired = true ∧ l.y.gradRequired = true

/-- Mean value over the first dimension, transposed. Here `backward` adds to the gradient of `x`, `GAP.backward_async` overwrites it. -/
def GapLayer.toNet (l : GapLayer) : NetLayer where
  ins := [l.x]
  out := l.y
  temps := [l.yT.value, l.yT.grad]
  forward := l.forwardAsync
  backward := do
    let alpha ← l.alpha
    seqAsync [transposeAsync 1 l.y.grad l.yT.grad 1, addSliceAsync alpha l.yT.grad 1 l.x.grad 0]
  F env I := (∑ p ∈ range (l.x.value.shape.getD 0 0), env l.x.value.id (p :: I.reverse)) / (l.x.value.shape.getD 0 0 : ℕ)
  Saved _ _ := True
  Valid _ := True
  Regular _ := True

/-- Normalization, MLP and residual connection. -/
def mixHalf (invalidate : Bool) (n : LayerNorm ℝ) (m : MixerMlp) : List NetLayer :=
  [n.toNet (n.eps ^ 2) invalidate, m.linear1.toNet, m.act.toNet, m.linear2.toNet.withResidual n.x]

/-- The parts of a layer. -/
def MixLayer.nets (invalidate : Bool) : MixLayer ℝ → List NetLayer
  | .linear l => [l.toNet]
  | .mixer l => mixHalf invalidate l.norm1 l.mlp1 ++ mixHalf invalidate l.norm2 l.mlp2
  | .gap l => [l.toNet]

/-- Gradients which backward propagation of the layer overwrites instead of adding to them. -/
def MixLayer.overwrites : MixLayer ℝ → List Tensor
  | .gap l => [l.x.grad]
  | _ => []

/-- The network of a model. -/
def MlpMixer.net (invalidate : Bool) (m : MlpMixer ℝ) : List NetLayer := m.layers.flatMap (MixLayer.nets invalidate)

/-! ### The model -/

/-- Arguments of the constructor: a batch of `B` images, each of `n` patches of `q` elements. There is one tile in the dimension of patches. -/
structure MixArgs (x : Moments) (n B q E C k tB tq next : Nat) : Prop where
  shape : x.value.shape = [n, B, q]
  tile : x.value.basetile = [n, tB, tq]
  usable : x.Usable
  ids : x.ids.Nodup
  below : ∀ i ∈ x.ids, i < next
  embed : 0 < E
  classes : 0 < C
  layers : 0 < k

/-- `p` are the parameters of the model, `out` is its last activation. -/
structure MlpMixer.Has (m : MlpMixer ℝ) (k : Nat) (p : MixP Moments) (out : Moments) : Prop where
  params : m.parameters = p.toList
  blocks : p.blocks.length = k
  last : m.activations.getLast? = some out

end
end NNTile
