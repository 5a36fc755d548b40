import Verif.Model.Flash
import Verif.Model.Attention
/-!
# Model of the FlashAttention layer, `wrappers/python/nntile/layer/flash_attention.py`

The layer has the attributes of `Attention`, and its code is that of `Attention` except for the functions below. The simplifications are those of `Model/Attention.lean` and
`Model/Flash.lean`; `val` stands for the minus infinity of the kernels. Without a mask the binding of `flash_maxsumexp_async` gets `None` instead of a tensor and raises `TypeError`.
-/
namespace NNTile
variable {α : Type}

/-- The assertion of `FlashAttention.__init__`, `wrappers/python/nntile/layer/flash_attention.py:70`; the rest is the same as for `Attention`. -/
def Attention.flashInit (l : Attention α) : M (Attention α) := do
  let nHead ← pyIndex l.wq.value.shape 0
  let tHead ← pyIndex l.wq.value.basetile 0
  throwIf (nHead % tHead ≠ 0) "AssertionError"
  l.init

/-- `FlashAttention.generate_simple`, `wrappers/python/nntile/layer/flash_attention.py:152-403`: as `Attention.generate_simple`, with the other constructor. -/
def Attention.flashGenerate (xq xk xv : Moments) (nHead nHeadTile : Nat) (next : Nat) (bias : Bool) (mask : Option Tensor) (val : α) (redux : Bool) : M (Attention α) := do
  let l ← Attention.generate xq xk xv nHead nHeadTile next bias mask val redux
  l.flashInit

/-- From queries, keys and values to the result of all heads, `wrappers/python/nntile/layer/flash_attention.py:483-525`. -/
def Attention.flashHeads [FP α] (asIdx : α → Int) (invalidate : Bool) (l : Attention α) : List (M (List (Task1 α))) := [
  clearAsync l.aMaxsumexp,
  match l.mask with
  | some m => flashMaxsumexpAsync (maskBool asIdx) l.val l.q.value l.k.value m l.aMaxsumexp l.a.value
  | none => .error (.throw "TypeError"),
  match l.mask with
  | some m => flashSoftmaxGemmAsync (maskBool asIdx) l.val l.q.value l.k.value l.v.value m l.aMaxsumexp l.b.value l.a.value
  | none => .error (.throw "TypeError"),
  invalidateAsync invalidate l.aMaxsumexp]

/-- `FlashAttention.forward_async`, `wrappers/python/nntile/layer/flash_attention.py:406-551`. -/
def Attention.flashForwardAsync [FP α] (asIdx : α → Int) (invalidate : Bool) (l : Attention α) : M (List (Task1 α)) := seqAsync (
  attnProject invalidate l.redux l.wq l.xq l.qT l.q l.biasQ ++ attnProject invalidate l.redux l.wk l.xk l.kT l.k l.biasK ++
  attnProject invalidate l.redux l.wv l.xv l.vT l.v l.biasV ++ l.flashHeads asIdx invalidate ++ l.combine invalidate)

/-- Backward propagation through the heads, `wrappers/python/nntile/layer/flash_attention.py:595-654`. -/
def Attention.flashHeadsBackward [FP α] (asIdx : α → Int) (invalidate : Bool) (l : Attention α) : List (M (List (Task1 α))) := [
  clearAsync l.aSumprodSlice,
  match l.mask with
  | some m => flashBackwardAsync (maskBool asIdx) l.val l.q.value l.q.grad l.k.value l.k.grad l.v.value l.v.grad m l.aMaxsumexp l.b.grad l.a.value l.a.grad l.aSumprodSlice
  | none => .error (.throw "TypeError"),
  invalidateAsync invalidate l.v.value,
  invalidateAsync invalidate l.b.grad,
  invalidateAsync invalidate l.q.value,
  invalidateAsync invalidate l.k.value,
  invalidateAsync invalidate l.a.grad]

/-- `FlashAttention.backward_async`, `wrappers/python/nntile/layer/flash_attention.py:554-792`. -/
def Attention.flashBackwardAsync [FP α] (asIdx : α → Int) (invalidate : Bool) (l : Attention α) : M (List (Task1 α)) := seqAsync (
  l.combineBackward invalidate ++ l.flashHeadsBackward asIdx invalidate ++ attnProjectBackward invalidate l.redux l.wv l.xv l.vT l.v l.biasV ++
  attnProjectBackward invalidate l.redux l.wk l.xk l.kT l.k l.biasK ++ attnProjectBackward invalidate l.redux l.wq l.xq l.qT l.q l.biasQ)

end NNTile
