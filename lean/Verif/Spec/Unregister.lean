import Verif.Model.Unregister
/-!
# What a user expects of `unregister`

Generators number the tensors they make. A generator of a layer without bias leaves out the numbers of the bias.
-/
namespace NNTile
variable {α : Type}

/-- The numbers which `Linear.generate_simple` would have given to the bias (value and gradient); no tensor has them if there is no bias. -/
def Linear.unused (l : Linear) : List Nat := if l.b.isSome then [] else [l.w.value.id + 2, l.w.value.id + 3]

/-- Numbers of no tensor among those which the generator of the layer passed. (Attention layers are only generated with biases here.) -/
def PyLayer.unused : PyLayer α → List Nat
  | .linear l => l.unused
  | _ => []

/-- The same for the layers of `MlpMixer`. -/
def MixLayer.unused : MixLayer α → List Nat
  | .linear l => l.unused
  | .mixer l => l.mlp1.linear1.unused ++ l.mlp1.linear2.unused ++ l.mlp2.linear1.unused ++ l.mlp2.linear2.unused
  | .gap _ => []

/-- The calls `ts` of `unregister` cover the tensors `given` and all tensors which were numbered from `first` to `last - 1`, and no others. -/
structure Releases (ts given : List Tensor) (unused : List Nat) (first last : Nat) : Prop where
  inputs : ∀ T ∈ given, T ∈ ts
  made : ∀ i, first ≤ i → i < last → i ∉ unused → ∃ T ∈ ts, T.id = i
  only : ∀ T ∈ ts, T ∈ given ∨ first ≤ T.id ∧ T.id < last

end NNTile
