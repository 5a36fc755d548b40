import Verif.Model.BaseModel
import Verif.Model.Randn
import Verif.Model.Normal
/-!
# Random initialization of parameters

`std::cos` is a parameter. The standard deviation is computed by Python in double precision and converted to the type of the tensor; here it is computed in the type
of the tensor.
-/
namespace NNTile
variable {α : Type}

/-- Body of the loop of `BaseLayer.init_randn_async`, `wrappers/python/nntile/layer/base_layer.py:40-44`, with `wrappers/python/nntile/tensor.py:350-357`: `seed = 100`,
`mean = 0.0`, `stddev = 1.0 / np.sqrt(p.value.nelems)`, start `[0]*len(p.value.shape)`, underlying shape `p.value.shape`. -/
def initParam [FP α] (cos : α → α) (p : Moments) : M (List (Task1 α)) :=
  let mean : α := FP.lit 0
  let stddev : α := FP.lit 1 / FP.sqrt (FP.ofIndex (p.value.shape.prod : Int))
  randnAsync laran (boxMuller cos mean stddev) p.value (List.replicate p.value.shape.length 0) (p.value.shape.map fun (n : Nat) => (n : Int)) 100#64

/-- `BaseLayer.init_randn_async`, `wrappers/python/nntile/layer/base_layer.py:38-44`, for a layer with the list `params` of parameters. -/
def initRandnAsync [FP α] (cos : α → α) (params : List Moments) : M (List (Task1 α)) := seqAsync (params.map (initParam cos))

/-- `type(l) is Linear`. -/
def PyLayer.isLinear : PyLayer α → Bool
  | .linear _ => true
  | _ => false

/-- `DeepReLU.init_randn_async`, `wrappers/python/nntile/model/deep_relu.py:78-81`, and `GPT2MLP.init_randn_async`, `wrappers/python/nntile/model/gpt2.py:90-93`. -/
def BaseModel.initLinears [FP α] (cos : α → α) (m : BaseModel α) : M (List (Task1 α)) :=
  seqAsync (m.layers.map fun l => if l.isLinear then initRandnAsync cos l.parameters else .ok [])

/-- `DeepLinear.init_randn_async`, `wrappers/python/nntile/model/deep_linear.py:68-70`. -/
def BaseModel.initAll [FP α] (cos : α → α) (m : BaseModel α) : M (List (Task1 α)) :=
  seqAsync (m.layers.map fun l => initRandnAsync cos l.parameters)

end NNTile
