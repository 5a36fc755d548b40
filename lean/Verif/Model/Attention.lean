import Verif.Model.Layer
import Verif.Model.Gemm
import Verif.Model.Fiber
import Verif.Model.Slice
import Verif.Model.Reduce
import Verif.Model.Transpose
import Verif.Model.Maxsumexp
import Verif.Model.Softmax
import Verif.Model.MaskScalar
import Verif.Model.Elementwise
/-!
# Model of multi-head attention, `wrappers/python/nntile/layer/attention.py`

Simplifications: `gemm_ex_async` (option `fp32_fast_tf32`) is not distinguished from `gemm_async`, as in `Model/Linear.lean`; `wont_use` and `set_reduction_*` do nothing
(the argument `redux` of each operation is modelled); `invalidate` is the switch explained at `invalidateAsync`; the Python scalar `1.0/head_size**0.5` is a value of the
scalar type; `val`, which the constructor sets to minus infinity if there is a mask (lines 139-140), is an attribute of any value here (the reals have no infinity); the
mask is a tensor of integers 0 and 1.
-/
namespace NNTile
variable {α : Type}

/-- The attributes of the layer, `wrappers/python/nntile/layer/attention.py:33-53,88-145`. -/
structure Attention (α : Type) where
  xq : Moments
  xk : Moments
  xv : Moments
  y : Moments
  wq : Moments
  wk : Moments
  wv : Moments
  w : Moments
  qT : Moments
  q : Moments
  kT : Moments
  k : Moments
  vT : Moments
  v : Moments
  a : Moments
  aMaxsumexp : Tensor
  aSumprodSlice : Tensor
  b : Moments
  bT : Moments
  biasQ : Option Moments
  biasK : Option Moments
  biasV : Option Moments
  biasOut : Option Moments
  nHead : Nat
  headSize : Nat
  mask : Option Tensor
  val : α
  redux : Bool

/-- `Attention.__init__`, `wrappers/python/nntile/layer/attention.py:56-145`: head sizes are computed and checked (lines 131-137). -/
def Attention.init (l : Attention α) : M (Attention α) := do
  let nHead ← pyIndex l.wq.value.shape 0
  let nEmb ← pyIndex l.xq.value.shape 0
  throwIf (nHead = 0) "ZeroDivisionError"
  throwIf (nEmb ≠ nEmb / nHead * nHead) "RuntimeError"
  .ok { l with nHead := nHead, headSize := nEmb / nHead }

/-- A new value and its gradient, both numbered from `next`. -/
def newPair (next : Nat) (shape basetile : List Nat) : M Moments := do
  let v ← newTensor next shape basetile
  let g ← newTensor (next + 1) shape basetile
  .ok ⟨v, g, true⟩

/-- A new value and its gradient if `c`. -/
def newPairIf (c : Bool) (next : Nat) (shape basetile : List Nat) : M (Option Moments) :=
  if c then do
    let m ← newPair next shape basetile
    .ok (some m)
  else .ok none

/-- `Attention.generate_simple`, `wrappers/python/nntile/layer/attention.py:149-398`. `next` numbers the new tensors (38 numbers are set aside, with or without biases).
The lists of distributions have as many entries as tiles (lines 225-241). A tuple assignment of a list of another length raises ValueError. -/
def Attention.generate (xq xk xv : Moments) (nHead nHeadTile : Nat) (next : Nat) (bias : Bool) (mask : Option Tensor) (val : α) (redux : Bool) : M (Attention α) := do
  throwIf (xq.value.shape.length ≠ 3 ∨ xq.value.basetile.length ≠ 3) "ValueError"
  let nEmb := xq.value.shape.getD 0 0
  let nSeq := xq.value.shape.getD 1 0
  let nBatch := xq.value.shape.getD 2 0
  let tEmb := xq.value.basetile.getD 0 0
  let tSeq := xq.value.basetile.getD 1 0
  let tBatch := xq.value.basetile.getD 2 0
  throwIf (nHead = 0) "ZeroDivisionError"
  let headSize := nEmb / nHead
  throwIf (nEmb ≠ headSize * nHead) "RuntimeError"
  let nEmbK ← pyIndex xk.value.shape 0
  let tEmbK ← pyIndex xk.value.basetile 0
  throwIf ([nSeq, nBatch] ≠ pyDrop xk.value.shape 1) "Invalid shape of x_k"
  throwIf ([tSeq, tBatch] ≠ pyDrop xk.value.basetile 1) "Invalid basetile shape of x_k"
  let nEmbV ← pyIndex xv.value.shape 0
  let tEmbV ← pyIndex xv.value.basetile 0
  throwIf ([nSeq, nBatch] ≠ pyDrop xv.value.shape 1) "Invalid shape of x_v"
  throwIf ([tSeq, tBatch] ≠ pyDrop xv.value.basetile 1) "Invalid basetile shape of x_v"
  let wq ← newPair next [nHead, headSize, nEmb] [nHeadTile, headSize, tEmb]
  let bq ← newPairIf bias (next + 2) [headSize, nHead] [headSize, nHeadTile]
  let wk ← newPair (next + 4) [nHead, headSize, nEmbK] [nHeadTile, headSize, tEmbK]
  let bk ← newPairIf bias (next + 6) [headSize, nHead] [headSize, nHeadTile]
  let wv ← newPair (next + 8) [nHead, headSize, nEmbV] [nHeadTile, headSize, tEmbV]
  let bv ← newPairIf bias (next + 10) [headSize, nHead] [headSize, nHeadTile]
  let w ← newPair (next + 12) [nEmb, nHead, headSize] [tEmb, nHeadTile, headSize]
  let qT ← newPair (next + 14) [nHead, headSize, nSeq, nBatch] [nHeadTile, headSize, tSeq, tBatch]
  let q ← newPair (next + 16) [headSize, nSeq, nBatch, nHead] [headSize, tSeq, tBatch, nHeadTile]
  let kT ← newPair (next + 18) [nHead, headSize, nSeq, nBatch] [nHeadTile, headSize, tSeq, tBatch]
  let k ← newPair (next + 20) [headSize, nSeq, nBatch, nHead] [headSize, tSeq, tBatch, nHeadTile]
  let vT ← newPair (next + 22) [nHead, headSize, nSeq, nBatch] [nHeadTile, headSize, tSeq, tBatch]
  let v ← newPair (next + 24) [headSize, nSeq, nBatch, nHead] [headSize, tSeq, tBatch, nHeadTile]
  let a ← newPair (next + 26) [nSeq, nSeq, nBatch, nHead] [tSeq, tSeq, tBatch, nHeadTile]
  let mse ← newTensor (next + 28) [2, nSeq, nBatch, nHead] [2, tSeq, tBatch, nHeadTile]
  let sps ← newTensor (next + 29) [nSeq, nBatch, nHead] [tSeq, tBatch, nHeadTile]
  let b ← newPair (next + 30) [headSize, nSeq, nBatch, nHead] [headSize, tSeq, tBatch, nHeadTile]
  let bT ← newPair (next + 32) [nHead, headSize, nSeq, nBatch] [nHeadTile, headSize, tSeq, tBatch]
  let bo ← newPairIf bias (next + 34) [nEmb] [tEmb]
  let y ← newPair (next + 36) xq.value.shape xq.value.basetile
  Attention.init ⟨xq, xk, xv, y, wq, wk, wv, w, qT, q, kT, k, vT, v, a, mse, sps, b, bT, bq, bk, bv, bo, 0, 0, mask, val, redux⟩

/-- `1.0/self.head_size**0.5`. -/
def Attention.scale [FP α] (l : Attention α) : α := 1 / FP.pow (FP.ofIndex l.headSize) (FP.lit (1/2))

/-- How elements of a mask are read. -/
def maskBool (asIdx : α → Int) (v : α) : Bool := asIdx v != 0

/-- Projection of one of the inputs, `wrappers/python/nntile/layer/attention.py:402-427` (queries), 428-452 (keys), 453-477 (values). -/
def attnProject [FP α] (invalidate redux : Bool) (w x pT p : Moments) (bias : Option Moments) : List (M (List (Task1 α))) := [
  gemmAsync 1 .noTrans w.value .noTrans x.value 0 pT.value 1 0 redux,
  transposeAsync 1 pT.value p.value 1,
  invalidateAsync invalidate pT.value,
  match bias with
  | some b => addFiberAsync 1 b.value 1 p.value 0 1
  | none => .ok []]

/-- From queries, keys and values to the result of all heads, `wrappers/python/nntile/layer/attention.py:478-521`. -/
def Attention.heads [FP α] (asIdx : α → Int) (invalidate : Bool) (l : Attention α) : List (M (List (Task1 α))) := [
  gemmAsync l.scale .trans l.k.value .noTrans l.q.value 0 l.a.value 1 2 l.redux,
  clearAsync l.aMaxsumexp,
  match l.mask with
  | some m => maskScalarAsync (maskBool asIdx) m l.val l.a.value 2
  | none => .ok [],
  maxsumexpAsync l.a.value l.aMaxsumexp 0 l.redux,
  softmaxInplaceAsync l.aMaxsumexp 1 l.a.value 0,
  invalidateAsync invalidate l.aMaxsumexp,
  gemmAsync 1 .noTrans l.v.value .noTrans l.a.value 0 l.b.value 1 2 l.redux]

/-- The output, `wrappers/python/nntile/layer/attention.py:522-547`. -/
def Attention.combine [FP α] (invalidate : Bool) (l : Attention α) : List (M (List (Task1 α))) := [
  transposeAsync 1 l.b.value l.bT.value 3,
  gemmAsync 1 .noTrans l.w.value .noTrans l.bT.value 0 l.y.value 2 0 l.redux,
  invalidateAsync invalidate l.b.value,
  match l.biasOut with
  | some b => addFiberAsync 1 b.value 1 l.y.value 0 0
  | none => .ok []]

/-- `Attention.forward_async`, `wrappers/python/nntile/layer/attention.py:401-547`. -/
def Attention.forwardAsync [FP α] (asIdx : α → Int) (invalidate : Bool) (l : Attention α) : M (List (Task1 α)) := seqAsync (
  attnProject invalidate l.redux l.wq l.xq l.qT l.q l.biasQ ++ attnProject invalidate l.redux l.wk l.xk l.kT l.k l.biasK ++
  attnProject invalidate l.redux l.wv l.xv l.vT l.v l.biasV ++ l.heads asIdx invalidate ++ l.combine invalidate)

/-- Backward propagation through the output, `wrappers/python/nntile/layer/attention.py:551-590`. -/
def Attention.combineBackward [FP α] (invalidate : Bool) (l : Attention α) : List (M (List (Task1 α))) := [
  match l.biasOut with
  | some b => whenAsync b.gradRequired (sumFiberAsync 1 l.y.grad 1 b.grad 0 0 l.redux)
  | none => .ok [],
  whenAsync l.w.gradRequired (gemmAsync 1 .noTrans l.y.grad .trans l.bT.value 1 l.w.grad 2 0 l.redux),
  invalidateAsync invalidate l.bT.value,
  whenAsync l.bT.gradRequired (gemmAsync 1 .trans l.w.value .noTrans l.y.grad 0 l.bT.grad 1 0 l.redux),
  whenAsync l.b.gradRequired (transposeAsync 1 l.bT.grad l.b.grad 1),
  invalidateAsync invalidate l.bT.grad]

/-- Backward propagation through the heads, `wrappers/python/nntile/layer/attention.py:591-663`. -/
def Attention.headsBackward [FP α] (asIdx : α → Int) (invalidate : Bool) (l : Attention α) : List (M (List (Task1 α))) := [
  whenAsync l.a.gradRequired (gemmAsync 1 .trans l.v.value .noTrans l.b.grad 0 l.a.grad 1 2 l.redux),
  invalidateAsync invalidate l.v.value,
  whenAsync l.v.gradRequired (gemmAsync 1 .noTrans l.b.grad .trans l.a.value 0 l.v.grad 1 2 l.redux),
  invalidateAsync invalidate l.b.grad,
  whenAsync l.a.gradRequired (seqAsync [
    sumprodSliceAsync 1 l.a.value l.a.grad 0 l.aSumprodSlice 0 l.redux,
    addSliceAsync (-1) l.aSumprodSlice 1 l.a.grad 0,
    invalidateAsync invalidate l.aSumprodSlice,
    prodAsync l.a.value l.a.grad]),
  invalidateAsync invalidate l.a.value,
  match l.mask with
  | some m => maskScalarAsync (maskBool asIdx) m 0 l.a.grad 2
  | none => .ok [],
  whenAsync l.k.gradRequired (gemmAsync l.scale .noTrans l.q.value .trans l.a.grad 0 l.k.grad 1 2 l.redux),
  invalidateAsync invalidate l.q.value,
  whenAsync l.q.gradRequired (gemmAsync l.scale .noTrans l.k.value .noTrans l.a.grad 0 l.q.grad 1 2 l.redux),
  invalidateAsync invalidate l.k.value,
  invalidateAsync invalidate l.a.grad]

/-- Backward propagation through a projection, `wrappers/python/nntile/layer/attention.py:664-709` (values), 710-755 (keys), 756-802 (queries). -/
def attnProjectBackward [FP α] (invalidate redux : Bool) (w x pT p : Moments) (bias : Option Moments) : List (M (List (Task1 α))) := [
  match bias with
  | some b => whenAsync b.gradRequired (sumFiberAsync 1 p.grad 1 b.grad 0 1 redux)
  | none => .ok [],
  whenAsync pT.gradRequired (transposeAsync 1 p.grad pT.grad 3),
  invalidateAsync invalidate p.grad,
  whenAsync x.gradRequired (gemmAsync 1 .trans w.value .noTrans pT.grad 1 x.grad 2 0 redux),
  whenAsync w.gradRequired (gemmAsync 1 .noTrans pT.grad .trans x.value 1 w.grad 2 0 redux),
  invalidateAsync invalidate pT.grad]

/-- `Attention.backward_async`, `wrappers/python/nntile/layer/attention.py:550-802`. -/
def Attention.backwardAsync [FP α] (asIdx : α → Int) (invalidate : Bool) (l : Attention α) : M (List (Task1 α)) := seqAsync (
  l.combineBackward invalidate ++ l.headsBackward asIdx invalidate ++ attnProjectBackward invalidate l.redux l.wv l.xv l.vT l.v l.biasV ++
  attnProjectBackward invalidate l.redux l.wk l.xk l.kT l.k l.biasK ++ attnProjectBackward invalidate l.redux l.wq l.xq l.qT l.q l.biasQ)

/-- `parameters`, `wrappers/python/nntile/layer/attention.py:67-85`. -/
def Attention.params (l : Attention α) : List Moments :=
  [l.wq, l.wk, l.wv] ++ [l.biasQ, l.biasK, l.biasV].filterMap id ++ [l.w] ++ [l.biasOut].filterMap id

end NNTile
