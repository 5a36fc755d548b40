import Verif.Model.NdArray
import Verif.Spec.Numpy
/-! What numpy arrays contain. -/
namespace NNTile
variable {α : Type}

/-- The array has the shape of the tensor (one element for a 0-dimensional tensor), one stride per dimension, and all of its elements lie in the memory. -/
structure NdView.Fits (a : NdView) (T : Tensor) (mem : Buf α) : Prop where
  shape : a.shape = if T.shape = [] then [1] else T.shape
  strides : a.strides.length = a.shape.length
  within : ∀ I, InBox a.shape I → 0 ≤ a.addr I ∧ a.addr I < mem.size

/-- `a[I] = x I` for all indices `I`. -/
def NdView.Shows (a : NdView) (mem : Buf α) (x : List Nat → α) : Prop := ∀ I, InBox a.shape I → mem.data (a.addr I).toNat = some (x I)

/-- The elements in C order: the last index is the fastest. -/
def cStrides : List Nat → List Int
  | [] => []
  | _ :: ns => (ns.prod : Int) :: cStrides ns

/-- The conversions of element types which numpy calls safe (`numpy.can_cast`). -/
def safeCasts : List (NpType × NpType) := [(.bool, .bool), (.bool, .int32), (.bool, .int64), (.bool, .float16), (.bool, .float32), (.bool, .float64), (.int32, .int32), (.int32, .int64), (.int32, .float64),
  (.int64, .int64), (.int64, .float64), (.float16, .float16), (.float16, .float32), (.float16, .float64), (.float32, .float32), (.float32, .float64), (.float64, .float64)]

end NNTile
