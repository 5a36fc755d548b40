import Verif.Model.Layer
import Verif.Model.Copy
import Verif.Model.Slice
import Verif.Model.Reduce
import Verif.Model.Embedding
/-!
# Model of the layers `Act`, `Add`, `AddSlice`, `Embedding`, `wrappers/python/nntile/layer/`

`wont_use` does nothing. Distributions of new tensors are not modelled.
-/
namespace NNTile
variable {α : Type}

/-! ### `act.py` -/

/-- The keys of `Act.activations`, `wrappers/python/nntile/layer/act.py:25-28`. -/
inductive ActKind where
  | relu
  | gelu
  | gelutanh
  deriving DecidableEq, Repr

/-- Lines 36-37 of `act.py`: any other name raises `ValueError`. -/
def ActKind.ofName (name : String) : M ActKind :=
  if name = "relu" then .ok .relu else if name = "gelu" then .ok .gelu else if name = "gelutanh" then .ok .gelutanh else .error (.throw "ValueError")

/-- The attributes of the layer, `wrappers/python/nntile/layer/act.py:22-44`. -/
structure Act where
  x : Moments
  y : Moments
  kind : ActKind

/-- `Act.generate_simple`, `wrappers/python/nntile/layer/act.py:48-60`. -/
def Act.generate (x : Moments) (name : String) (next : Nat) : M Act := do
  let yValue ← newTensor next x.value.shape x.value.basetile
  let yGrad ← newTensor (next + 1) x.value.shape x.value.basetile
  let kind ← ActKind.ofName name
  .ok ⟨x, ⟨yValue, yGrad, true⟩, kind⟩

/-- `Act.forward_async`, `wrappers/python/nntile/layer/act.py:63-72`. -/
def Act.forwardAsync [FP α] (l : Act) : M (List (Task1 α)) := match l.kind with
  | .relu => seqAsync [reluForwardAsync l.x.value l.y.value]
  | .gelutanh => seqAsync [gelutanhAsync l.x.value l.y.value]
  | .gelu => seqAsync [copyAsync l.x.value l.y.value, geluAsync l.y.value]

/-- `Act.backward_async`, `wrappers/python/nntile/layer/act.py:75-81`, with the second function of the table at lines 25-28. -/
def Act.backwardAsync [FP α] (l : Act) : M (List (Task1 α)) := seqAsync [whenAsync l.x.gradRequired (match l.kind with
  | .relu => reluBackwardAsync l.x.value l.y.grad l.x.grad
  | .gelutanh => gelutanhBackwardAsync l.x.value l.y.grad l.x.grad
  | .gelu => geluBackwardAsync l.x.value l.y.grad l.x.grad)]

/-! ### `add.py` -/

/-- The attributes of the layer, `wrappers/python/nntile/layer/add.py:22-27`. -/
structure AddLayer where
  x : Moments
  y : Moments
  res : Moments

/-- `Add.generate_simple`, `wrappers/python/nntile/layer/add.py:30-38`. -/
def AddLayer.generate (x y : Moments) (next : Nat) : M AddLayer := do
  let resValue ← newTensor next y.value.shape y.value.basetile
  let resGrad ← newTensor (next + 1) y.value.shape y.value.basetile
  .ok ⟨x, y, ⟨resValue, resGrad, true⟩⟩

/-- `Add.forward_async`, `wrappers/python/nntile/layer/add.py:40-45`. -/
def AddLayer.forwardAsync [FP α] (l : AddLayer) : M (List (Task1 α)) :=
  seqAsync [copyAsync l.x.value l.res.value, addAsync 1 l.y.value 1 l.res.value]

/-- `Add.backward_async`, `wrappers/python/nntile/layer/add.py:47-52`: `grad_required` is not looked at. -/
def AddLayer.backwardAsync [FP α] (l : AddLayer) : M (List (Task1 α)) :=
  seqAsync [addAsync 1 l.res.grad 1 l.x.grad, addAsync 1 l.res.grad 1 l.y.grad]

/-! ### `add_slice.py` -/

/-- The attributes of the layer, `wrappers/python/nntile/layer/add_slice.py:21-33`. -/
structure AddSliceLayer where
  x : Moments
  y : Moments
  u : Moments
  axis : Int
  redux : Bool

/-- `AddSlice.generate_simple`, `wrappers/python/nntile/layer/add_slice.py:55-69`. -/
def AddSliceLayer.generate (x y : Moments) (axis : Int) (next : Nat) (redux : Bool) : M AddSliceLayer := do
  let uValue ← newTensor next x.value.shape x.value.basetile
  let uGrad ← newTensor (next + 1) x.value.shape x.value.basetile
  .ok ⟨x, y, ⟨uValue, uGrad, true⟩, axis, redux⟩

/-- `AddSlice.forward_async`, `wrappers/python/nntile/layer/add_slice.py:36-43`. -/
def AddSliceLayer.forwardAsync [FP α] (l : AddSliceLayer) : M (List (Task1 α)) :=
  seqAsync [copyAsync l.x.value l.u.value, addSliceAsync 1 l.y.value 1 l.u.value l.axis]

/-- `AddSlice.backward_async`, `wrappers/python/nntile/layer/add_slice.py:45-51`: `grad_required` is not looked at. -/
def AddSliceLayer.backwardAsync [FP α] (l : AddSliceLayer) : M (List (Task1 α)) :=
  seqAsync [addAsync 1 l.u.grad 1 l.x.grad, sumSliceAsync 1 l.u.grad 1 l.y.grad l.axis l.redux]

/-! ### `embedding.py` -/

/-- The attributes of the layer, `wrappers/python/nntile/layer/embedding.py:20-35`; `x` is a tensor of integers. -/
structure EmbeddingLayer where
  x : Tensor
  y : Moments
  w : Moments
  axis : Int

/-- `list.insert` of Python: a negative index counts from the end, other indices are cut. -/
def pyInsert (l : List Nat) (i : Int) (v : Nat) : List Nat :=
  let j := if i < 0 then (i + l.length).toNat else min i.toNat l.length
  l.take j ++ v :: l.drop j

/-- `Embedding.generate_simple`, `wrappers/python/nntile/layer/embedding.py:39-70`. -/
def EmbeddingLayer.generate (x : Tensor) (axis : Int) (vocabSize embSize yTile wTile next : Nat) : M EmbeddingLayer := do
  throwIf (wTile = 0) "ZeroDivisionError"
  throwIf (yTile % wTile ≠ 0) "y_emb_tile % w_emb_tile != 0"
  let wValue ← newTensor next [embSize, vocabSize] [wTile, vocabSize]
  let wGrad ← newTensor (next + 1) [embSize, vocabSize] [wTile, vocabSize]
  let yShape := pyInsert x.shape axis embSize
  let yBase := pyInsert x.basetile axis yTile
  let yValue ← newTensor (next + 2) yShape yBase
  let yGrad ← newTensor (next + 3) yShape yBase
  .ok ⟨x, ⟨yValue, yGrad, true⟩, ⟨wValue, wGrad, true⟩, axis⟩

/-- `Embedding.forward_async`, `wrappers/python/nntile/layer/embedding.py:73-78`. -/
def EmbeddingLayer.forwardAsync [FP α] (asIdx : α → Int) (l : EmbeddingLayer) : M (List (Task1 α)) :=
  seqAsync [clearAsync l.y.value, embeddingAsync asIdx l.x l.w.value l.y.value l.axis]

/-- `Embedding.backward_async`, `wrappers/python/nntile/layer/embedding.py:81-88`: `grad_required` is not looked at. -/
def EmbeddingLayer.backwardAsync [FP α] (asIdx : α → Int) (l : EmbeddingLayer) : M (List (Task1 α)) :=
  seqAsync [embeddingBackwardAsync asIdx l.x l.y.grad l.w.grad l.axis false]

end NNTile
