import Verif.Model.BaseModel
/-!
# Model of the constructors of `DeepReLU`, `DeepLinear` and `GPT2MLP`, `wrappers/python/nntile/model/`

`side` is an enumeration, see `Linear`. The flag `fp32_fast_tf32` is not modelled, see `Linear`. `next` stands for `next_tag`, it numbers the new tensors.
-/
namespace NNTile
variable {α : Type}

/-- The local variables `activations`, `layers` and `next_tag` of the constructors. -/
structure Builder (α : Type) where
  acts : List Moments
  layers : List (PyLayer α)
  next : Nat

/-- `activations[-k]`. -/
def Builder.back (b : Builder α) (k : Nat) : M Moments :=
  match b.acts.reverse[k - 1]? with
  | some m => .ok m
  | none => .error (.throw "IndexError")

/-- `new_layer, next_tag = Linear.generate_simple(...)`, `layers.append(new_layer)`, `activations.extend(new_layer.activations_output)`,
e.g. `wrappers/python/nntile/model/deep_relu.py:45-51`. -/
def Builder.linear (b : Builder α) (x : Moments) (side : Side) (ndim : Int) (shape tile : List Nat) (bias redux : Bool) : M (Builder α) := do
  let l ← Linear.generate x side .noTrans ndim shape tile b.next bias redux
  .ok ⟨b.acts ++ [l.y], b.layers ++ [.linear l], b.next + 6⟩

/-- The same with `Act.generate_simple`, e.g. `wrappers/python/nntile/model/deep_relu.py:52-55`. -/
def Builder.act (b : Builder α) (x : Moments) (name : String) : M (Builder α) := do
  let l ← Act.generate x name b.next
  .ok ⟨b.acts ++ [l.y], b.layers ++ [.act l], b.next + 2⟩

/-- `for i in range(...)`: the body does not use `i`. -/
def Builder.iter (f : Builder α → M (Builder α)) : Nat → Builder α → M (Builder α)
  | 0, b => .ok b
  | n + 1, b => do
    let b ← f b
    Builder.iter f n b

/-- `DeepReLU.__init__`, `wrappers/python/nntile/model/deep_relu.py:28-75`. The result is the model and `self.next_tag`. -/
def deepRelu (x : Moments) (side : Side) (ndim : Int) (addShape addTile : Nat) (nlayers : Int) (nClasses next : Nat) (bias : Bool) : M (BaseModel α × Nat) := do
  throwIf (nlayers < 2) "nlayers must be at least 2"
  throwIf (ndim ≤ 0) "ndim must be positive integer"
  let b : Builder α := ⟨[x], [], next⟩
  let b ← b.linear x side ndim [addShape] [addTile] bias false
  let b ← b.act (← b.back 1) "relu"
  let b ← Builder.iter (fun b => do
    let b ← b.linear (← b.back 1) side 1 [addShape] [addTile] bias false
    b.act (← b.back 1) "relu") (nlayers - 1 - 1).toNat b
  let b ← b.linear (← b.back 1) side 1 [nClasses] [nClasses] bias false
  .ok (BaseModel.init b.acts b.layers, b.next)

/-- `new_shape` and `new_base`, `wrappers/python/nntile/model/deep_linear.py:53-58`. -/
def deepLinearOut (side : Side) (ndim : Int) (l : List Nat) : List Nat := match side with
  | .L => lastOf ndim.toNat l
  | .R => l.take ndim.toNat

/-- `DeepLinear.__init__`, `wrappers/python/nntile/model/deep_linear.py:25-65`: the layers have a bias, the default of `Linear.generate_simple`. -/
def deepLinear (x : Moments) (side : Side) (ndim : Int) (addShape addTile : Nat) (nlayers : Int) (next : Nat) : M (BaseModel α × Nat) := do
  throwIf (nlayers < 2) "nlayers must be at least 2"
  throwIf (ndim ≤ 0) "ndim must be positive integer"
  let b : Builder α := ⟨[x], [], next⟩
  let b ← b.linear x side ndim [addShape] [addTile] true false
  let b ← Builder.iter (fun b => do
    b.linear (← b.back 1) side 1 [addShape] [addTile] true false) (nlayers - 1 - 1).toNat b
  let b ← b.linear (← b.back 1) side 1 (deepLinearOut side ndim x.value.shape) (deepLinearOut side ndim x.value.basetile) true false
  .ok (BaseModel.init b.acts b.layers, b.next)

/-- The lists of activations and layers made by `GPT2MLP.__init__`, `wrappers/python/nntile/model/gpt2.py:55-84`. -/
def gpt2MlpBuild (x : Moments) (embedDim embedTile innerDim innerTile : Nat) (activation : String) (redux : Bool) (next : Nat) : M (Builder α) := do
  let b : Builder α := ⟨[x], [], next⟩
  let b ← b.linear x .R 1 [innerDim] [innerTile] true redux
  let b ← b.act (← b.back 1) activation
  b.linear (← b.back 1) .R 1 [embedDim] [embedTile] true redux

/-- `GPT2MLP.__init__`, `wrappers/python/nntile/model/gpt2.py:55-87`. -/
def gpt2Mlp (x : Moments) (embedDim embedTile innerDim innerTile : Nat) (activation : String) (redux : Bool) (next : Nat) : M (BaseModel α × Nat) := do
  let b ← gpt2MlpBuild x embedDim embedTile innerDim innerTile activation redux next
  .ok (BaseModel.init b.acts b.layers, b.next)

end NNTile
