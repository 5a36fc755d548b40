import Verif.Model.DeepModels
import Verif.Model.Transpose
/-!
# Model of the layers `GAP`, `MixerMlp`, `Mixer`, `wrappers/python/nntile/layer/mixer.py`, and of `MlpMixer`, `wrappers/python/nntile/model/mlp_mixer.py`

`next` stands for `next_tag`, it numbers the new tensors; `side` is an enumeration, see `Linear`.
-/
namespace NNTile
variable {α : Type}

/-! ### `GAP` -/

/-- The attributes of the layer, `wrappers/python/nntile/layer/mixer.py:8-19`. -/
structure GapLayer where
  x : Moments
  y : Moments
  yT : Moments

/-- `GAP.generate_simple`, `wrappers/python/nntile/layer/mixer.py:26-58`. -/
def GapLayer.generate (x : Moments) (next : Nat) : M GapLayer := do
  let yTShape := pyDrop x.value.shape 1
  let yTTile := pyDrop x.value.basetile 1
  let yTValue ← newTensor next yTShape yTTile
  let yTGrad ← newTensor (next + 1) yTShape yTTile
  let yShape := yTShape.reverse
  let yTile := yTTile.reverse
  let yValue ← newTensor (next + 2) yShape yTile
  let yGrad ← newTensor (next + 3) yShape yTile
  .ok ⟨x, ⟨yValue, yGrad, true⟩, ⟨yTValue, yTGrad, true⟩⟩

/-- `1 / (self.x.value.shape[0])`, `wrappers/python/nntile/layer/mixer.py:62,68`. Sizes are positive. -/
def GapLayer.alpha [FP α] (l : GapLayer) : M α := do
  let n ← pyIndex l.x.value.shape 0
  .ok (1 / FP.ofIndex n)

/-- `GAP.forward_async`, `wrappers/python/nntile/layer/mixer.py:61-64`. -/
def GapLayer.forwardAsync [FP α] (l : GapLayer) : M (List (Task1 α)) := do
  let alpha ← l.alpha
  seqAsync [sumSliceAsync alpha l.x.value 0 l.yT.value 0 false, transposeAsync 1 l.yT.value l.y.value 1]

/-- `GAP.backward_async`, `wrappers/python/nntile/layer/mixer.py:67-70`. -/
def GapLayer.backwardAsync [FP α] (l : GapLayer) : M (List (Task1 α)) := do
  let alpha ← l.alpha
  seqAsync [transposeAsync 1 l.y.grad l.yT.grad 1, addSliceAsync alpha l.yT.grad 0 l.x.grad 0]

/-! ### `MixerMlp` -/

/-- The attributes of the layer, `wrappers/python/nntile/layer/mixer.py:73-101`. -/
structure MixerMlp where
  side : Side
  x : Moments
  y : Moments
  linear1 : Linear
  linear2 : Linear
  act : Act

/-- `layer_temporaries`, `wrappers/python/nntile/layer/mixer.py:97`. -/
def MixerMlp.temporaries (l : MixerMlp) : List Moments := [l.linear1.y, l.act.y, l.linear2.y]

/-- `layer_parameters`, `wrappers/python/nntile/layer/mixer.py:98`. -/
def MixerMlp.parameters (l : MixerMlp) : List Moments := (l.linear1.w :: l.linear1.b.toList) ++ (l.linear2.w :: l.linear2.b.toList)

/-- `init_shape` (and `add_shape = 4 * init_shape`), `wrappers/python/nntile/layer/mixer.py:120-127`. -/
def mixerMlpSize (x : Moments) : Side → M Nat
  | .R => pyIndex x.value.shape 0
  | .L => pyIndex x.value.shape (-1)

/-- `MixerMlp.generate_simple`, `wrappers/python/nntile/layer/mixer.py:118-134`. The tiles of the new dimensions are the whole dimensions. -/
def MixerMlp.generate (x : Moments) (side : Side) (next : Nat) : M MixerMlp := do
  let init ← mixerMlpSize x side
  let l1 ← Linear.generate x side .noTrans 1 [init * 4] [init * 4] next false false
  let act ← Act.generate l1.y "gelu" (next + 6)
  let l2 ← Linear.generate act.y side .noTrans 1 [init] [init] (next + 8) false false
  .ok ⟨side, x, l2.y, l1, l2, act⟩

/-- `MixerMlp.forward_async`, `wrappers/python/nntile/layer/mixer.py:137-140`. -/
def MixerMlp.forwardAsync [FP α] (l : MixerMlp) : M (List (Task1 α)) :=
  seqAsync [l.linear1.forwardAsync, l.act.forwardAsync, l.linear2.forwardAsync]

/-- `MixerMlp.backward_async`, `wrappers/python/nntile/layer/mixer.py:143-146`. -/
def MixerMlp.backwardAsync [FP α] (l : MixerMlp) : M (List (Task1 α)) :=
  seqAsync [l.linear2.backwardAsync, l.act.backwardAsync, l.linear1.backwardAsync]

/-! ### `Mixer` -/

/-- The attributes of the layer, `wrappers/python/nntile/layer/mixer.py:149-173`. -/
structure MixerLayer (α : Type) where
  x : Moments
  y : Moments
  norm1 : LayerNorm α
  norm2 : LayerNorm α
  mlp1 : MixerMlp
  mlp2 : MixerMlp

/-- `layer_parameters`, `wrappers/python/nntile/layer/mixer.py:169`. -/
def MixerLayer.parameters (l : MixerLayer α) : List Moments :=
  [l.norm1.gamma, l.norm1.beta] ++ l.mlp1.parameters ++ [l.norm2.gamma, l.norm2.beta] ++ l.mlp2.parameters

/-- `layer_tmp`, `wrappers/python/nntile/layer/mixer.py:170`. -/
def MixerLayer.temporaries (l : MixerLayer α) : List Moments := [l.norm1.y] ++ l.mlp1.temporaries ++ [l.norm2.y] ++ l.mlp2.temporaries

/-- `Mixer.generate_simple`, `wrappers/python/nntile/layer/mixer.py:195-208`: the layer and the tasks which initialize the parameters of the normalizations. -/
def MixerLayer.generate [FP α] (x : Moments) (next : Nat) : M (MixerLayer α × List (Task1 α)) := do
  let r1 ← LayerNorm.generate x 2 (FP.lit (1/100000)) next false
  let mlp1 ← MixerMlp.generate r1.1.y .R (next + 10)
  let r2 ← LayerNorm.generate mlp1.y 2 (FP.lit (1/100000)) (next + 24) false
  let mlp2 ← MixerMlp.generate r2.1.y .L (next + 34)
  .ok (⟨x, mlp2.y, r1.1, r2.1, mlp1, mlp2⟩, r1.2 ++ r2.2)

/-- `Mixer.forward_async`, `wrappers/python/nntile/layer/mixer.py:212-218`. -/
def MixerLayer.forwardAsync [FP α] (l : MixerLayer α) : M (List (Task1 α)) := seqAsync [
  l.norm1.forwardAsync,
  l.mlp1.forwardAsync,
  addAsync 1 l.x.value 1 l.mlp1.y.value,
  l.norm2.forwardAsync,
  l.mlp2.forwardAsync,
  addAsync 1 l.norm2.x.value 1 l.mlp2.y.value]

/-- `Mixer.backward_async`, `wrappers/python/nntile/layer/mixer.py:221-227`. -/
def MixerLayer.backwardAsync [FP α] (invalidate : Bool) (l : MixerLayer α) : M (List (Task1 α)) := seqAsync [
  l.mlp2.backwardAsync,
  l.norm2.backwardAsync invalidate,
  addAsync 1 l.mlp2.linear2.y.grad 1 l.mlp1.y.grad,
  l.mlp1.backwardAsync,
  l.norm1.backwardAsync invalidate,
  addAsync 1 l.mlp1.linear2.y.grad 1 l.x.grad]

/-! ### `MlpMixer` -/

/-- The layers of the model. -/
inductive MixLayer (α : Type) where
  | linear (l : Linear)
  | mixer (l : MixerLayer α)
  | gap (l : GapLayer)

/-- Dynamic dispatch of `forward_async`. -/
def MixLayer.forwardAsync [FP α] : MixLayer α → M (List (Task1 α))
  | .linear l => l.forwardAsync
  | .mixer l => l.forwardAsync
  | .gap l => l.forwardAsync

/-- Dynamic dispatch of `backward_async`. -/
def MixLayer.backwardAsync [FP α] (invalidate : Bool) : MixLayer α → M (List (Task1 α))
  | .linear l => l.backwardAsync
  | .mixer l => l.backwardAsync invalidate
  | .gap l => l.backwardAsync

/-- `parameters`, the third list given to `BaseLayer.__init__` (`linear.py:57-63`, `mixer.py:19,173`). -/
def MixLayer.parameters : MixLayer α → List Moments
  | .linear l => l.w :: l.b.toList
  | .mixer l => l.parameters
  | .gap _ => []

/-- `temporaries`, the fourth list given to `BaseLayer.__init__` (`linear.py:57-63`, where all elements are `None`, `mixer.py:19,173`). -/
def MixLayer.temporaries : MixLayer α → List Moments
  | .linear _ => []
  | .mixer l => l.temporaries
  | .gap l => [l.yT]

/-- The attributes, `wrappers/python/nntile/model/base_model.py:20-32`; `parameters` is filled by `BaseModel.__init__`. -/
structure MlpMixer (α : Type) where
  activations : List Moments
  layers : List (MixLayer α)

/-- `BaseModel.__init__`, `wrappers/python/nntile/model/base_model.py:30-32`. -/
def MlpMixer.parameters (m : MlpMixer α) : List Moments := m.layers.flatMap MixLayer.parameters

/-- The local variables of the constructor: activations, layers, `next_tag`, and the tasks which initialize parameters. -/
structure MixBuilder (α : Type) where
  acts : List Moments
  layers : List (MixLayer α)
  next : Nat
  tasks : List (Task1 α)

/-- `activations[-1]`. -/
def MixBuilder.last (b : MixBuilder α) : M Moments :=
  match b.acts.getLast? with
  | some m => .ok m
  | none => .error (.throw "IndexError")

/-- The body of the loop, `wrappers/python/nntile/model/mlp_mixer.py:46-49`. -/
def MixBuilder.mixer [FP α] (b : MixBuilder α) : M (MixBuilder α) := do
  let r ← MixerLayer.generate (← b.last) b.next
  .ok ⟨b.acts ++ [r.1.y], b.layers ++ [.mixer r.1], b.next + 48, b.tasks ++ r.2⟩

/-- `for _ in range(1, n_layers + 1)`, `wrappers/python/nntile/model/mlp_mixer.py:46-49`. -/
def MixBuilder.mixers [FP α] : Nat → MixBuilder α → M (MixBuilder α)
  | 0, b => .ok b
  | n + 1, b => do
    let b ← b.mixer
    MixBuilder.mixers n b

/-- `MlpMixer.__init__`, `wrappers/python/nntile/model/mlp_mixer.py:26-63`: the model, the tasks which initialize the parameters of the normalizations, and `self.next_tag`. -/
def mlpMixer [FP α] (x : Moments) (embeddingDim : Nat) (nLayers : Int) (nClasses next : Nat) : M (MlpMixer α × List (Task1 α) × Nat) := do
  throwIf (nLayers < 1) "nlayers must be at least 1"
  let _channel ← pyIndex x.value.shape 0
  let _patch ← pyIndex x.value.shape 2
  let l ← Linear.generate x .L .noTrans 1 [embeddingDim] [embeddingDim] next false false
  let b ← MixBuilder.mixers nLayers.toNat ⟨[x, l.y], [.linear l], next + 6, []⟩
  let g ← GapLayer.generate (← b.last) b.next
  let c ← Linear.generate g.y .R .noTrans 1 [nClasses] [nClasses] (b.next + 4) false false
  .ok (⟨b.acts ++ [g.y] ++ [c.y], b.layers ++ [.gap g] ++ [.linear c]⟩, b.tasks, b.next + 4 + 6)

/-- `BaseModel.forward_async`, `wrappers/python/nntile/model/base_model.py:41-43`. -/
def MlpMixer.forwardAsync [FP α] (m : MlpMixer α) : M (List (Task1 α)) := seqAsync (m.layers.map MixLayer.forwardAsync)

/-- `BaseModel.backward_async`, `wrappers/python/nntile/model/base_model.py:46-48`. -/
def MlpMixer.backwardAsync [FP α] (invalidate : Bool) (m : MlpMixer α) : M (List (Task1 α)) :=
  seqAsync (m.layers.reverse.map (MixLayer.backwardAsync invalidate))

/-- `if t.grad is not None and t.grad_required: clear_async(t.grad)`. -/
def clearGrads [FP α] (ts : List Moments) : M (List (Task1 α)) := seqAsync (ts.map fun t => whenAsync t.gradRequired (clearAsync t.grad))

/-- `MlpMixer.clear_tmp_grads`, `wrappers/python/nntile/model/mlp_mixer.py:86-90`. -/
def MlpMixer.clearTmpGrads [FP α] (m : MlpMixer α) : M (List (Task1 α)) := seqAsync (m.layers.map fun l => clearGrads l.temporaries)

/-- `MlpMixer.clear_activations_grads`, `wrappers/python/nntile/model/mlp_mixer.py:75-82`. -/
def MlpMixer.clearActivationsGrads [FP α] (m : MlpMixer α) : M (List (Task1 α)) :=
  seqAsync [clearGrads m.activations, seqAsync (m.layers.map fun l => clearGrads l.temporaries)]

/-- `MlpMixer.clear_gradients`, `wrappers/python/nntile/model/mlp_mixer.py:94-97`, with `clear_parameters_grads` of `BaseModel`, `base_model.py:56-59`. -/
def MlpMixer.clearGradients [FP α] (m : MlpMixer α) : M (List (Task1 α)) := seqAsync [clearGrads m.parameters, m.clearActivationsGrads, m.clearTmpGrads]

end NNTile
