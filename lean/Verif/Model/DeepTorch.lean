import Verif.Model.DeepModels
import Verif.Model.Torch
/-!
# `DeepReLU.from_torch` and `GPT2MLP.from_torch`, `wrappers/python/nntile/model/{deep_relu,gpt2}.py`

For arrays see `Verif.Model.Torch`. The parameters of the PyTorch model are given by their arrays in the order of `parameters()`.
-/
namespace NNTile
variable {α : Type}

/-- `p.value.from_array(...)` for an element `p` of `parameters` (see `BaseModel.append` for the lists in it). -/
def loadEntry (tmpId : Nat) : PyEntry → NdArray α → Store α → M (Store α)
  | .moments m, a, s => fromArray m.value tmpId a.toF s
  | .list _, _, _ => .error (.throw "AttributeError")

/-- The loop in `DeepReLU.from_torch`, `wrappers/python/nntile/model/deep_relu.py:114-116`; `zip` stops at the end of the shorter list. -/
def deepLoads (tmpId : Nat) : List PyEntry → List (NdArray α) → Store α → M (Store α)
  | e :: es, p :: ps, s => do
    let s ← loadEntry tmpId e p s
    deepLoads tmpId es ps s
  | _, _, s => .ok s

/-- What `from_torch` reads off the parameters: `bias`, `n_layers`, `input_dim`, `hidden_layer_dim`. -/
structure DeepSizes where
  bias : Bool
  layers : Nat
  input : Nat
  hidden : Nat

/-- `bias` and `n_layers`, `wrappers/python/nntile/model/deep_relu.py:92-97`. They are not assigned if the second parameter has another number of dimensions, which is an error where they are read. -/
def deepBias (n : Nat) (p1 : NdArray α) : M (Bool × Nat) :=
  if p1.shape.length = 2 then .ok (false, n)
  else if p1.shape.length = 1 then .ok (true, n / 2)
  else .error (.throw "UnboundLocalError")

/-- `wrappers/python/nntile/model/deep_relu.py:90-100`. -/
def deepSizes (ps : List (NdArray α)) : M DeepSizes := do
  let p1 ← (ps[1]?).elim (.error (.throw "IndexError")) .ok
  let r ← deepBias ps.length p1
  let p0 ← (ps[0]?).elim (.error (.throw "IndexError")) .ok
  let input ← pyIndex p0.shape 1
  let hidden ← pyIndex p0.shape 0
  .ok ⟨r.1, r.2, input, hidden⟩

/-- What the constructor calls in `DeepReLU.from_torch` make: the input tensor, the model, and `next_tag`. -/
structure TorchedDeep (α : Type) where
  x : Tensor
  model : BaseModel α
  next : Nat

/-- `DeepReLU.from_torch` without what it does to the contents of tensors, `wrappers/python/nntile/model/deep_relu.py:84-117`. For another nonlinearity than `"relu"` the function returns `None`. -/
def deepFromTorchInit (ps : List (NdArray α)) (batch nClasses : Nat) (nonlinearity : String) (next : Nat) : M (Option (TorchedDeep α)) := do
  let z ← deepSizes ps
  let x ← newTensor next [z.input, batch] [z.input, batch]
  if nonlinearity = "relu" then do
    let r ← deepRelu ⟨x, x, false⟩ .R 1 z.hidden z.hidden z.layers nClasses (next + 1) z.bias
    .ok (some ⟨x, r.1, r.2⟩)
  else .ok none

/-- What `DeepReLU.from_torch` does to the contents of tensors, `wrappers/python/nntile/model/deep_relu.py:114-116`. -/
def deepFromTorchLoad (g : TorchedDeep α) (ps : List (NdArray α)) (tmpId : Nat) (s : Store α) : M (Store α) := deepLoads tmpId g.model.parameters ps s

/-- The loop in `GPT2MLP.from_torch`, `wrappers/python/nntile/model/gpt2.py:104-105`: all parameters of the model are loaded, there may be more arrays. -/
def mlpLoads (tmpId : Nat) : List PyEntry → List (NdArray α) → Store α → M (Store α)
  | e :: es, p :: ps, s => do
    let s ← loadEntry tmpId e p.T s
    mlpLoads tmpId es ps s
  | _ :: _, [], _ => .error (.throw "IndexError")
  | [], _, s => .ok s

/-- What `GPT2MLP.from_torch` does to the contents of tensors, `wrappers/python/nntile/model/gpt2.py:104-105`; the model is made by the constructor, `gpt2Mlp`. -/
def mlpFromTorchLoad (m : BaseModel α) (ps : List (NdArray α)) (tmpId : Nat) (s : Store α) : M (Store α) := mlpLoads tmpId m.parameters ps s

end NNTile
