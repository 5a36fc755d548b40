import Verif.Model.BlockingLayer
import Verif.Model.Loss
/-!
# The model `DeepReLU_mp`, `wrappers/python/nntile/model/deep_relu_mp.py`

The class is exported by `wrappers/python/nntile/model/__init__.py:17`. Python looks a name up when it is used; the module uses the names `fp32_fast_tf32` (line 40) and `DeepReLU` (line 123), which it does not
define. What comes after a lookup which fails is not modelled.

Simplification: output is not modelled, and a parameter of the PyTorch model is given by its shape, which must have two entries.
-/
namespace NNTile

/-- Names defined by the module, `wrappers/python/nntile/model/deep_relu_mp.py:14-24`. -/
def deepReluMpNames : List String :=
  ["TensorTraits", "Tensor", "TensorOrNone", "TensorMoments", "notrans", "trans", "Tensor_fp32", "BaseModel", "Linear", "Act", "FP32_to_FP16", "FP16_to_FP32", "np", "List", "DeepReLU_mp"]

/-- The constructor, `wrappers/python/nntile/model/deep_relu_mp.py:28-40`; `names` are the names which the module defines, and `rest` is what the constructor does after line 40. -/
def DeepReluMp.new {β : Type} (names : List String) (side : String) (ndim nlayers : Int) (rest : M β) : M β := do
  throwIf (side ≠ "L" ∧ side ≠ "R") "side must be either 'L' or 'R'"
  throwIf (nlayers < 2) "nlayers must be at least 2"
  throwIf (ndim ≤ 0) "ndim must be positive integer"
  lookupName names "fp32_fast_tf32"
  rest

/-- The loop of `from_torch` over the parameters, `wrappers/python/nntile/model/deep_relu_mp.py:103-111`: the shapes of the parameters which are left, and `hidden_layer_dim`. -/
def DeepReluMp.checkParams (nClasses : Nat) : Option Nat → List (Nat × Nat) → M Unit
  | _, [] => .ok ()
  | hidden, p :: ps => do
    throwIf (hidden.any fun h => h ≠ p.2) "PyTorch model has different hidden dims"
    throwIf (ps = [] ∧ p.1 ≠ nClasses) "Last layer of PyTorch model does not correspond to the target number of classes"
    checkParams nClasses (some (hidden.getD p.1)) ps

/-- `from_torch`, `wrappers/python/nntile/model/deep_relu_mp.py:95-127`: `none` is Python's `None`; `build` is what the function does in lines 123-127 after the lookup of `DeepReLU`. `hidden_layer_dim` has no
value if there are no parameters. -/
def DeepReluMp.fromTorch {β : Type} (names : List String) (params : List (Nat × Nat)) (batch nClasses : Nat) (nonlinearity : String) (tag : Nat) (build : M β) : M (Option β) := do
  checkParams nClasses none params
  throwIf (params = []) "UnboundLocalError"
  let _ ← newTensorD tag [batch, (params.headD (0, 0)).2] [batch, (params.headD (0, 0)).2] 1
  if nonlinearity = "relu" then do
    lookupName names "DeepReLU"
    let m ← build
    .ok (some m)
  else .ok none

end NNTile
