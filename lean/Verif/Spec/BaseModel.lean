import Verif.Spec.NetLayers
import Verif.Spec.Attention
import Verif.Spec.FlashLayer
import Verif.Model.BaseModel
/-!
# Models as networks
-/
namespace NNTile
open Finset
noncomputable section

/-- The sizes of the tensors of an attention layer. -/
def Attention.dims (l : Attention ℝ) : AttnDims where
  E := l.xq.value.shape.getD 0 0
  Ek := l.xk.value.shape.getD 0 0
  Ev := l.xv.value.shape.getD 0 0
  S := l.xq.value.shape.getD 1 0
  B := l.xq.value.shape.getD 2 0
  H := l.wq.value.shape.getD 0 0
  D := l.wq.value.shape.getD 1 0

/-- The meaning of a layer. -/
def PyLayer.toNet (asIdx : ℝ → Int) (invalidate : Bool) : PyLayer ℝ → NetLayer
  | .act l => l.toNet
  | .add l => l.toNet
  | .addSlice l => l.toNet
  | .embedding l => l.toNet asIdx
  | .linear l => l.toNet
  | .layerNorm l => l.toNet (l.eps ^ 2) invalidate
  | .attention l => l.toNet l.dims asIdx invalidate
  | .flash l => l.toFlashNet l.dims asIdx false

/-- The tensors of the layer fit. -/
def PyLayer.Fits : PyLayer ℝ → Prop
  | .act l => l.Fits
  | .add l => l.Fits
  | .addSlice l => ∃ a, l.Fits a
  | .embedding l => ∃ a, l.Fits a
  | .linear l => (∃ M K N, l.Fits M K N) ∧ l.y.gradRequired = true
  | .layerNorm l => (∃ a eps, l.Fits a eps) ∧ (∀ m ∈ [l.x, l.gamma, l.beta, l.y], m.gradRequired = true) ∧ l.x.value.WF
  | .attention l => ∃ z t, l.Fits z t
  | .flash l => (∃ z t, l.Fits z t ∧ FlashTiles z t) ∧ l.mask.isSome

/-- Tensors which a layer reads, but which are neither activations nor parameters: masks of attention layers. -/
def PyLayer.masks : PyLayer ℝ → List Moments
  | .attention l => (l.mask.map maskMoments).toList
  | .flash l => (l.mask.map maskMoments).toList
  | _ => []

/-- The network of a list of layers. -/
def netOf (asIdx : ℝ → Int) (invalidate : Bool) (layers : List (PyLayer ℝ)) : List NetLayer := layers.map (PyLayer.toNet asIdx invalidate)

/-- The layers form a network with the inputs and parameters `given`: the tensors of each layer fit; a layer reads `given` tensors and outputs of layers before it,
each as one operand only; all tensors are different. -/
structure IsNetwork (asIdx : ℝ → Int) (invalidate : Bool) (given : List Moments) (layers : List (PyLayer ℝ)) : Prop where
  fits : ∀ l ∈ layers, l.Fits
  operands : ∀ l ∈ netOf asIdx invalidate layers, (l.ins.map fun m => m.value.id).Nodup
  order : Ordered given (netOf asIdx invalidate layers)
  ids : (netIds given (netOf asIdx invalidate layers)).Nodup

/-- All tensors of the network are registered. -/
def NetReady (given : List Moments) (net : List NetLayer) (s : Store ℝ) : Prop :=
  (∀ m ∈ given ++ net.map NetLayer.out, m.value.Ready s ∧ (m.gradRequired = true → m.grad.Ready s)) ∧ ∀ l ∈ net, AllReady l.temps s

/-- The state after forward propagation: the values of all tensors are those defined by the inputs and parameters, and the temporary tensors are as backward
propagation expects them. -/
def Propagated (given : List Moments) (net : List NetLayer) (env : Env) (s : Store ℝ) : Prop :=
  ValuesHold (given ++ net.map NetLayer.out) s (netEnv env net) ∧ ∀ l ∈ net, l.Saved (netEnv env net) s ∧ AllReady l.temps s

/-- The contents `env` with the element `J` of the tensor `i` changed by `t`. -/
def Env.shift (env : Env) (i : Nat) (J : List Nat) (t : ℝ) : Env := Function.update env i (Function.update (env i) J (env i J + t))

end
end NNTile
