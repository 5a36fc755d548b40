import Verif.Model.Mixer
import Verif.Model.Torch
/-!
# Exchange of parameters of `MlpMixer` with PyTorch, `wrappers/python/nntile/model/mlp_mixer.py`

For arrays see `Verif.Model.Torch`. The parameters of the PyTorch model are given by their arrays in the order of `parameters()`.
-/
namespace NNTile
variable {α : Type}

/-- `p.copy_(src)`: the array `p` gets the elements of `src`. Broadcasting is not modelled (another shape is an error). -/
def NdArray.copyFrom (p src : NdArray α) : M (NdArray α) := do
  throwIf (src.shape ≠ p.shape) "RuntimeError"
  .ok ⟨p.shape, src.elem⟩

/-- `p.value.shape[0] != p_torch.shape[0]`, `wrappers/python/nntile/model/mlp_mixer.py:122,132`. -/
def mixTransposed (T : Tensor) (p : NdArray α) : M Bool := do
  let n ← pyIndex T.shape 0
  let k ← pyIndex p.shape 0
  .ok (n != k)

/-- The body of the loop in `from_torch`, `wrappers/python/nntile/model/mlp_mixer.py:122-125`. -/
def mixLoad (tmpId : Nat) (T : Tensor) (p : NdArray α) (s : Store α) : M (Store α) := do
  let tr ← mixTransposed T p
  if tr then fromArray T tmpId p.T.toF s else fromArray T tmpId p.toF s

/-- The loop in `from_torch`, `wrappers/python/nntile/model/mlp_mixer.py:121-125`; `zip` stops at the end of the shorter list. -/
def mixLoads (tmpId : Nat) : List Moments → List (NdArray α) → Store α → M (Store α)
  | m :: ms, p :: ps, s => do
    let s ← mixLoad tmpId m.value p s
    mixLoads tmpId ms ps s
  | _, _, s => .ok s

/-- Sizes which `from_torch` reads off the parameters: the number of mixer layers, `hidden_layer_dim`, `n_pixels`, `n_patches`. -/
structure MixSizes where
  layers : Int
  hidden : Nat
  pixels : Nat
  patches : Nat

/-- `wrappers/python/nntile/model/mlp_mixer.py:102-108`; `int` rounds toward zero. A variable which the loop does not assign is an error where it is read. -/
def mixSizes (ps : List (NdArray α)) : M MixSizes := do
  let nMixer := ((ps.length : Int) - 2).tdiv 8
  let p0 ← (ps[0]?).elim (.error (.throw "UnboundLocalError")) .ok
  let hidden ← pyIndex p0.shape 0
  let pixels ← pyIndex p0.shape 1
  let p3 ← (ps[3]?).elim (.error (.throw "UnboundLocalError")) .ok
  let patches ← pyIndex p3.shape 1
  .ok ⟨nMixer, hidden, pixels, patches⟩

/-- What the constructor calls in `MlpMixer.from_torch` make: the tensor of images and the model, the tasks which initialize parameters, and `next_tag`. -/
structure TorchedMixer (α : Type) where
  x : Tensor
  model : MlpMixer α
  tasks : List (Task1 α)
  next : Nat

/-- `MlpMixer.from_torch` without what it does to the contents of tensors, `wrappers/python/nntile/model/mlp_mixer.py:101-120`. -/
def mixFromTorchInit [FP α] (ps : List (NdArray α)) (batch nClasses next : Nat) : M (TorchedMixer α) := do
  let z ← mixSizes ps
  let x ← newTensor next [z.patches, batch, z.pixels] [z.patches, batch, z.pixels]
  let r ← mlpMixer ⟨x, x, false⟩ z.hidden z.layers nClasses (next + 1)
  .ok ⟨x, r.1, r.2.1, r.2.2⟩

/-- What `MlpMixer.from_torch` does to the contents of tensors: the tasks of the constructor, then the loop, `wrappers/python/nntile/model/mlp_mixer.py:121-125`. -/
def mixFromTorchLoad [FP α] (g : TorchedMixer α) (ps : List (NdArray α)) (tmpId : Nat) (s : Store α) : M (Store α) := do
  let s ← runAll1 g.tasks s
  mixLoads tmpId g.model.parameters ps s

/-- The body of the loop in `to_torch`, `wrappers/python/nntile/model/mlp_mixer.py:132-139`: the new array of the PyTorch parameter. -/
def mixSave [FP α] (tmpId : Nat) (T : Tensor) (p : NdArray α) (s : Store α) : M (NdArray α × Store α) := do
  let tr ← mixTransposed T p
  if tr then do
    let r ← toArray T tmpId (npZeros T.shape) s
    let p' ← p.copyFrom r.1.toNd.T
    .ok (p', r.2)
  else do
    let r ← toArray T tmpId (npZeros T.shape) s
    let p' ← p.copyFrom r.1.toNd
    .ok (p', r.2)

/-- `MlpMixer.to_torch`, `wrappers/python/nntile/model/mlp_mixer.py:129-139`: the new arrays of the PyTorch parameters; those which `zip` does not reach stay as they are. -/
def mixSaves [FP α] (tmpId : Nat) : List Moments → List (NdArray α) → Store α → M (List (NdArray α) × Store α)
  | m :: ms, p :: ps, s => do
    let r ← mixSave tmpId m.value p s
    let r' ← mixSaves tmpId ms ps r.2
    .ok (r.1 :: r'.1, r'.2)
  | _, ps, s => .ok (ps, s)

end NNTile
