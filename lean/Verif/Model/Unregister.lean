import Verif.Model.Gpt2
import Verif.Model.Mixer
import Verif.Model.Loss
import Verif.Model.Optim
/-!
# Model of the methods `unregister` of layers, models, losses and optimizers

The result is the list of tensors whose method `unregister` (`include/nntile/tensor/tensor.hh:128-134`, see `tensorUnregister`) is called, in the order of the calls; one tensor may occur several times.
If an exception is raised, the calls before it are not described.
-/
namespace NNTile
variable {α : Type}

/-- `TensorMoments.unregister`, `wrappers/python/nntile/tensor.py:44-48`. A gradient which is not required is `None`, see `Moments`. -/
def Moments.unregister (m : Moments) : List Tensor := m.value :: if m.gradRequired then [m.grad] else []

/-- The fourth list given to `BaseLayer.__init__`: `act.py:39`, `add.py:27`, `add_slice.py:23`, `embedding.py:29`, `linear.py:58,61` (`None` without `fp32_convert_fp16`, which is not modelled),
`layer_norm.py:43-44`, `attention.py:84-87`, `flash_attention.py:87-90`, all in `wrappers/python/nntile/layer`. The `unregister` of each of its elements, a tensor or a `TensorMoments`. -/
def PyLayer.unregisterTemporaries : PyLayer α → List Tensor
  | .act _ => []
  | .add _ => []
  | .addSlice _ => []
  | .embedding _ => []
  | .linear _ => []
  | .layerNorm l => [l.tmpYValue, l.tmpYGrad, l.mean, l.invStddev]
  | .attention l => [l.qT, l.q, l.kT, l.k, l.vT, l.v, l.a].flatMap Moments.unregister ++ [l.aMaxsumexp, l.aSumprodSlice] ++ [l.b, l.bT].flatMap Moments.unregister
  | .flash l => [l.qT, l.q, l.kT, l.k, l.vT, l.v, l.a].flatMap Moments.unregister ++ [l.aMaxsumexp, l.aSumprodSlice] ++ [l.b, l.bT].flatMap Moments.unregister

/-- `BaseLayer.unregister`, `wrappers/python/nntile/layer/base_layer.py:61-66`, overridden by `Add.unregister`, `wrappers/python/nntile/layer/add.py:54-55`. -/
def PyLayer.unregister : PyLayer α → List Tensor
  | .add l => l.res.unregister
  | l => l.parameters.flatMap Moments.unregister ++ l.unregisterTemporaries

/-- `x.unregister()` for an element `x` of the list of activations: a list has no such method. -/
def PyEntry.unregister : PyEntry → M (List Tensor)
  | .moments m => .ok m.unregister
  | .list _ => .error (.throw "AttributeError")

/-- The loop `for x in self.activations`. -/
def unregisterEntries : List PyEntry → M (List Tensor)
  | [] => .ok []
  | e :: es => do
    let a ← e.unregister
    let b ← unregisterEntries es
    .ok (a ++ b)

/-- `BaseModel.unregister`, `wrappers/python/nntile/model/base_model.py:68-72`. -/
def BaseModel.unregister (m : BaseModel α) : M (List Tensor) := do
  let a ← unregisterEntries m.activations
  .ok (m.layers.flatMap PyLayer.unregister ++ a)

/-- `GPT2Model.unregister`, `wrappers/python/nntile/model/gpt2.py:351-354`: the tensor `self.mask` is true as a condition. -/
def Gpt2Model.unregister (g : Gpt2Model α) : M (List Tensor) := do
  let a ← g.model.unregister
  .ok (a ++ [g.mask])

/-- `BaseLayer.unregister` with the lists of `MixerMlp`, `wrappers/python/nntile/layer/mixer.py:97-105`. -/
def MixerMlp.unregister (l : MixerMlp) : List Tensor := l.parameters.flatMap Moments.unregister ++ l.temporaries.flatMap Moments.unregister

/-- `Mixer.unregister`, `wrappers/python/nntile/layer/mixer.py:176-181`. -/
def MixerLayer.unregister (l : MixerLayer α) : List Tensor :=
  l.parameters.flatMap Moments.unregister ++ l.temporaries.flatMap Moments.unregister ++ (PyLayer.layerNorm l.norm1).unregister ++ (PyLayer.layerNorm l.norm2).unregister ++
    l.mlp1.unregister ++ l.mlp2.unregister

/-- Dynamic dispatch of `unregister`; `GAP.unregister` is `wrappers/python/nntile/layer/mixer.py:22-23`. -/
def MixLayer.unregister : MixLayer α → List Tensor
  | .linear l => (PyLayer.linear (α := α) l).unregister
  | .mixer l => l.unregister
  | .gap l => l.yT.unregister

/-- `MlpMixer.unregister`, `wrappers/python/nntile/model/mlp_mixer.py:67-71`. -/
def MlpMixer.unregister (m : MlpMixer α) : List Tensor := m.layers.flatMap MixLayer.unregister ++ m.activations.flatMap Moments.unregister

/-- `Frob.unregister`, `wrappers/python/nntile/loss/frob.py:77-81` (this definition replaces the one at line 33). -/
def Frob.unregister (l : Frob) : List Tensor := [l.tmp, l.val, l.valSqrt, l.y]

/-- `CrossEntropy.unregister`, `wrappers/python/nntile/loss/crossentropy.py:70-74`. -/
def CrossEntropy.unregister (l : CrossEntropy α) : List Tensor := [l.logsumexp, l.maxsumexp, l.val, l.y]

/-- `SGD.unregister`, `wrappers/python/nntile/optimizer/sgd.py:48-51`. -/
def SGD.unregister [FP α] (o : SGD α) : List Tensor := if FP.ltb 0 o.momentum then o.states else []

/-- `for i in range(len(self.first_moments))`: the elements `first_moments[i]`, `second_moments[i]` and those of a third list, if `third`. -/
def unregisterMoments (third : Bool) (first second maxs : List Tensor) : M (List Tensor) :=
  (List.range first.length).foldlM (fun acc i => do
    let m ← pyTensor first i
    let v ← pyTensor second i
    let w ← if third then (do
      let w ← pyTensor maxs i
      .ok [w]) else .ok []
    .ok (acc ++ [m, v] ++ w)) []

/-- `Adam.unregister`, `wrappers/python/nntile/optimizer/adam.py:53-58`. -/
def Adam.unregister (o : Adam α) : M (List Tensor) := unregisterMoments o.amsgrad o.firstMoments o.secondMoments o.maxSecondMoments

/-- `FusedAdam.unregister` and `FusedAdamW.unregister`, `wrappers/python/nntile/optimizer/adam.py:185-188`, `adamw.py:50-53`. -/
def Fused.unregister (o : Fused α) : M (List Tensor) := unregisterMoments false o.firstMoments o.secondMoments []

end NNTile
