import Verif.Model.Layer
import Verif.Model.Gemm
import Verif.Model.Fiber
import Verif.Model.Reduce
/-!
# Model of the linear layer, `wrappers/python/nntile/layer/linear.py`

Simplifications: the option `fp32_fast_tf32` is modelled for the forward method in `Model/GemmEx.lean`; here `gemm_ex_async` is not
distinguished from `gemm_async`; the option `fp32_convert_fp16` is not modelled (it uses names the file does not import:
`fp32_to_fp16_async`, `fp16_to_fp32_async`, `Tensor_fp16`). `side` is an enumeration, since the constructor raises an exception for a string other than
`'L'` and `'R'` (lines 51-52).
-/
namespace NNTile
variable {α : Type}

/-- `side`. -/
inductive Side where
  | L
  | R
  deriving DecidableEq, Repr

/-- The attributes of the layer, `wrappers/python/nntile/layer/linear.py:24-38`. -/
structure Linear where
  side : Side
  transX : TransOp
  x : Moments
  y : Moments
  w : Moments
  ndim : Int
  b : Option Moments
  redux : Bool

/-- `Linear.__init__`, `wrappers/python/nntile/layer/linear.py:41-83`. -/
def Linear.init (side : Side) (transX : TransOp) (x y w : Moments) (ndim : Int) (b : Option Moments) (redux : Bool) : M Linear := do
  throwIf (ndim ≤ 0) "ndim must be positive integer"
  .ok ⟨side, transX, x, y, w, ndim, b, redux⟩

/-- Python slices `l[-n:]`, `l[:-n]` for a positive `n` (also if `n` is larger than the length). -/
def lastOf (n : Nat) (l : List Nat) : List Nat := l.drop (l.length - n)
def exceptLast (n : Nat) (l : List Nat) : List Nat := l.take (l.length - n)

/-- Lines 96-117 of `linear.py`, the shape (or tiling) of `w`. -/
def linearW (side : Side) (transX : TransOp) (n : Nat) (x add : List Nat) : List Nat :=
  match side, transX with
  | .L, .noTrans => lastOf n x ++ add
  | .L, .trans => x.take n ++ add
  | .R, .noTrans => add ++ x.take n
  | .R, .trans => add ++ lastOf n x

/-- Lines 96-117 of `linear.py`, the shape (or tiling) of `y`. -/
def linearY (side : Side) (transX : TransOp) (n : Nat) (x add : List Nat) : List Nat :=
  match side, transX with
  | .L, .noTrans => exceptLast n x ++ add
  | .L, .trans => x.drop n ++ add
  | .R, .noTrans => add ++ x.drop n
  | .R, .trans => add ++ exceptLast n x

/-- `Linear.generate_simple`, `wrappers/python/nntile/layer/linear.py:86-186`. `next` numbers the new tensors. The check `ndim <= 0` is done by the
constructor at the end in the code; a list slice with a `ndim <= 0` has no effect but that exception (or an earlier one). -/
def Linear.generate (x : Moments) (side : Side) (transX : TransOp) (ndim : Int) (outShape outTile : List Nat) (next : Nat) (bias redux : Bool) :
    M Linear := do
  throwIf (ndim ≤ 0) "ndim must be positive integer"
  let n := ndim.toNat
  let wShape := linearW side transX n x.value.shape outShape
  let wTile := linearW side transX n x.value.basetile outTile
  let yShape := linearY side transX n x.value.shape outShape
  let yTile := linearY side transX n x.value.basetile outTile
  let wValue ← newTensor next wShape wTile
  let wGrad ← newTensor (next + 1) wShape wTile
  let w : Moments := ⟨wValue, wGrad, true⟩
  let b ← (if bias then do
      throwIf (outShape.length > 1) "Bias is not yet supported for len(add_shape) > 1"
      let bValue ← newTensor (next + 2) outShape outTile
      let bGrad ← newTensor (next + 3) outShape outTile
      .ok (some ⟨bValue, bGrad, true⟩)
    else .ok none)
  let yValue ← newTensor (next + 4) yShape yTile
  let yGrad ← newTensor (next + 5) yShape yTile
  let y : Moments := ⟨yValue, yGrad, true⟩
  Linear.init side transX x y w ndim b redux

/-- `Linear.forward_async`, `wrappers/python/nntile/layer/linear.py:189-248`. -/
def Linear.forwardAsync [FP α] (l : Linear) : M (List (Task1 α)) :=
  match l.side with
  | .L => seqAsync [
      gemmAsync 1 l.transX l.x.value .noTrans l.w.value 0 l.y.value l.ndim 0 l.redux,
      match l.b with
      | some b => addFiberAsync 1 b.value 1 l.y.value ((l.y.value.ndim : Int) - 1) 0
      | none => .ok []]
  | .R => seqAsync [
      gemmAsync 1 .noTrans l.w.value l.transX l.x.value 0 l.y.value l.ndim 0 l.redux,
      match l.b with
      | some b => addFiberAsync 1 b.value 1 l.y.value 0 0
      | none => .ok []]

/-- Gradient over `W`, `wrappers/python/nntile/layer/linear.py:255-325`. -/
def Linear.backwardW [FP α] (l : Linear) : M (List (Task1 α)) :=
  let gemm_ndim : Int := (l.x.value.ndim : Int) - l.ndim
  match l.side, l.transX with
  | .L, .noTrans => gemmAsync 1 .trans l.x.value .noTrans l.y.grad 1 l.w.grad gemm_ndim 0 l.redux
  | .L, .trans => gemmAsync 1 .noTrans l.x.value .noTrans l.y.grad 1 l.w.grad gemm_ndim 0 l.redux
  | .R, .noTrans => gemmAsync 1 .noTrans l.y.grad .trans l.x.value 1 l.w.grad gemm_ndim 0 l.redux
  | .R, .trans => gemmAsync 1 .noTrans l.y.grad .noTrans l.x.value 1 l.w.grad gemm_ndim 0 l.redux

/-- Gradient over the bias, `wrappers/python/nntile/layer/linear.py:334-343`. -/
def Linear.backwardB [FP α] (l : Linear) : M (List (Task1 α)) :=
  match l.b with
  | some b => whenAsync b.gradRequired (match l.side with
      | .L => sumFiberAsync 1 l.y.grad 1 b.grad ((l.y.value.ndim : Int) - 1) 0 l.redux
      | .R => sumFiberAsync 1 l.y.grad 1 b.grad 0 0 l.redux)
  | none => .ok []

/-- Gradient over `X`, `wrappers/python/nntile/layer/linear.py:344-414`. -/
def Linear.backwardX [FP α] (l : Linear) : M (List (Task1 α)) :=
  let gemm_ndim : Int := (l.w.value.ndim : Int) - l.ndim
  match l.side, l.transX with
  | .L, .noTrans => gemmAsync 1 .noTrans l.y.grad .trans l.w.value 1 l.x.grad gemm_ndim 0 l.redux
  | .L, .trans => gemmAsync 1 .noTrans l.w.value .trans l.y.grad 1 l.x.grad gemm_ndim 0 l.redux
  | .R, .noTrans => gemmAsync 1 .trans l.w.value .noTrans l.y.grad 1 l.x.grad gemm_ndim 0 l.redux
  | .R, .trans => gemmAsync 1 .trans l.y.grad .noTrans l.w.value 1 l.x.grad gemm_ndim 0 l.redux

/-- `Linear.backward_async`, `wrappers/python/nntile/layer/linear.py:251-429`. -/
def Linear.backwardAsync [FP α] (l : Linear) : M (List (Task1 α)) :=
  seqAsync [whenAsync l.w.gradRequired l.backwardW, l.backwardB, whenAsync l.x.gradRequired l.backwardX]

end NNTile
