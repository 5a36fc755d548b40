import Verif.Model.Numpy
import Verif.Model.TileNumpy
/-!
# Arguments of `from_array` and `to_array`, `wrappers/python/nntile/nntile_core.cc`

The parameters have the types `py::array_t<T, py::array::f_style | py::array::forcecast>` (lines 80, 208) and `py::array_t<T, py::array::f_style>` (lines 122, 272). pybind11 calls
`PyArray_FromAny` of numpy with the flags `NPY_ARRAY_F_CONTIGUOUS` and, for `from_array` only, `NPY_ARRAY_FORCECAST`: if the argument has the element type `T` and is contiguous in Fortran order,
it is the argument itself; otherwise it is a new array with the same elements converted to `T` (the flag `NPY_ARRAY_WRITEBACKIFCOPY` is not set); without `FORCECAST` the conversion has
to be safe, otherwise no function matches and `TypeError` is raised. This is the documented behaviour of pybind11 and numpy, whose code is not in `/repo`.

Simplifications: arguments which are not arrays (lists, numbers) are not modelled; strides are numbers of elements; arrays are aligned and have the byte order of the machine. Numbers of all
element types have the type `α`; `conv t v` is `v` converted to the type `t`.
-/
namespace NNTile
variable {α : Type}

/-- Element types. -/
inductive NpType where
  | bool
  | int32
  | int64
  | float16
  | float32
  | float64
  deriving DecidableEq, Repr

/-- `numpy.can_cast(a, b, "safe")`. -/
def NpType.safe : NpType → NpType → Bool
  | .bool, _ => true
  | .int32, b => b == .int32 || b == .int64 || b == .float64
  | .int64, b => b == .int64 || b == .float64
  | .float16, b => b == .float16 || b == .float32 || b == .float64
  | .float32, b => b == .float32 || b == .float64
  | .float64, b => b == .float64

/-- A numpy array: it shows elements of a memory. -/
structure NdView where
  type : NpType
  shape : List Nat
  /-- place of the first element -/
  offset : Int
  strides : List Int
  writeable : Bool

def dotStrides : List Int → List Nat → Int
  | s :: ss, i :: is => s * i + dotStrides ss is
  | _, _ => 0

/-- Place of an element. -/
def NdView.addr (a : NdView) (I : List Nat) : Int := a.offset + dotStrides a.strides I

/-- Loop of `_UpdateContiguousFlags` of numpy: strides of dimensions of one element do not matter. -/
def fStrides (d : Nat) : List Nat → List Int → Bool
  | [], _ => true
  | n :: ns, s :: ss => (n == 1 || s == (d : Int)) && fStrides (d * n) ns ss
  | _, [] => false

/-- The flag `F_CONTIGUOUS`. -/
def NdView.isF (a : NdView) : Bool := decide (0 ∈ a.shape) || fStrides 1 a.shape a.strides

/-- Conversion of the argument to `py::array_t<T, py::array::f_style>`, with `force` to `py::array_t<T, py::array::f_style | py::array::forcecast>`: the array, and whether it is the argument. -/
def ensureF (conv : NpType → α → α) (ty : NpType) (force : Bool) (a : NdView) (mem : Buf α) : M (NpArray α × Bool) :=
  if a.type = ty ∧ a.isF then .ok (⟨a.shape, ⟨a.shape.prod, fun k => mem.data (a.offset.toNat + k)⟩⟩, true)
  else if force ∨ a.type.safe ty then
    .ok (⟨a.shape, ⟨a.shape.prod, fun k => (mem.data (a.addr (unlin a.shape k)).toNat).map fun v => if a.type = ty then v else conv ty v⟩⟩, false)
  else .error (.throw "TypeError")

/-- `tensor.from_array(a)`, where `mem` is the memory of the array. -/
def pyFromArray (conv : NpType → α → α) (ty : NpType) (T : Tensor) (tmpId : Nat) (a : NdView) (mem : Buf α) (s : Store α) : M (Store α) := do
  let r ← ensureF conv ty true a mem
  fromArray T tmpId r.1 s

/-- `tensor.to_array(a)`: the memory of the array, and the store. `array.mutable_data()` throws if the array is not writeable; a new array is. -/
def pyToArray (conv : NpType → α → α) (ty : NpType) (T : Tensor) (tmpId : Nat) (a : NdView) (mem : Buf α) (s : Store α) : M (Buf α × Store α) := do
  let r ← ensureF conv ty false a mem
  let w ← toArray T tmpId r.1 s
  throwIf (r.2 = true ∧ a.writeable = false) "array is not writeable"
  let n := a.shape.prod
  let o := a.offset.toNat
  .ok (if r.2 then ⟨mem.size, fun j => if o ≤ j ∧ j < o + n then w.1.data.data (j - o) else mem.data j⟩ else mem, w.2)

/-- `tile.from_array(a)`. -/
def pyTileFromArray (conv : NpType → α → α) (ty : NpType) (T : Tile) (a : NdView) (mem : Buf α) (s : Store α) : M (Store α) := do
  let r ← ensureF conv ty true a mem
  tileFromArray T r.1 s

/-- `tile.to_array(a)`. -/
def pyTileToArray (conv : NpType → α → α) (ty : NpType) (T : Tile) (a : NdView) (mem : Buf α) (s : Store α) : M (Buf α) := do
  let r ← ensureF conv ty false a mem
  let w ← tileToArray T r.1 s
  throwIf (r.2 = true ∧ a.writeable = false) "array is not writeable"
  let n := a.shape.prod
  let o := a.offset.toNat
  .ok (if r.2 then ⟨mem.size, fun j => if o ≤ j ∧ j < o + n then w.data.data (j - o) else mem.data j⟩ else mem)

end NNTile
