import Verif.Model.Traits
/-!
# Index arithmetic in 64 bits

`Index` is `int64_t`, `include/nntile/base_types.hh:24`. `Verif.Model.Traits` computes in unbounded integers; here is the same code with the range of the machine: a result which does not fit is undefined
behaviour (overflow of a signed integer). Vectors of length `ndim` are lists as there; counters of loops (at most `ndim`) are not modelled.
-/
namespace NNTile

/-- The value fits into `int64_t`. -/
def In64 (x : Int) : Prop := -2 ^ 63 ≤ x ∧ x < 2 ^ 63

instance (x : Int) : Decidable (In64 x) := by unfold In64; infer_instance

/-- The result of an operation on `Index`. -/
def fit64 (x : Int) : M Int := if In64 x then .ok x else .error (.ub "signed overflow")

/-- `a / b` of `Index`; not defined for `b == 0`, and for the least value and `-1`. -/
def div64 (a b : Int) : M Int := if b = 0 then .error (.ub "division by zero") else fit64 (a.tdiv b)

/-- First loop of the constructor, `include/nntile/tile/traits.hh:88-94`. -/
def rowsLoop64 (tmp : Int) : List Int → M (List Int × Int)
  | [] => .ok ([], tmp)
  | s :: ss => do
    let t ← fit64 (tmp * s)
    let r ← rowsLoop64 t ss
    .ok (t :: r.1, r.2)

/-- Second loop of the constructor, `include/nntile/tile/traits.hh:98-104`, from the last dimension down. -/
def colsLoop64 : List Int → M (List Int)
  | [] => .ok [1]
  | s :: ss => do
    let r ← colsLoop64 ss
    let t ← fit64 (r.headD 1 * s)
    .ok (t :: r)

/-- `TileTraits::TileTraits`, `include/nntile/tile/traits.hh:79-110`. -/
def TileTraits.make64 (shape : List Int) : M TileTraits := do
  checkPositive "shape[i] <= 0" shape
  let r ← rowsLoop64 1 shape
  let c ← colsLoop64 shape
  let rows := 1 :: r.1
  .ok { ndim := shape.length
        shape := shape
        nelems := r.2
        rows := rows
        cols := c
        stride := rows.take shape.length }

/-- Loop of `index_to_linear`, `include/nntile/tile/traits.hh:137-144`. -/
def indexLoop64 : List Int → List Int → List Int → Int → M Int
  | i :: is, s :: ss, d :: ds, acc =>
    if i < 0 ∨ i ≥ s then .error (.throw "Index out of bounds")
    else do
      let p ← fit64 (i * d)
      let a ← fit64 (acc + p)
      indexLoop64 is ss ds a
  | _, _, _, acc => .ok acc

/-- `TileTraits::index_to_linear`, `include/nntile/tile/traits.hh:119-146`. -/
def TileTraits.index_to_linear64 (t : TileTraits) (index : List Int) : M Int :=
  if index.length ≠ t.ndim then .error (.throw "Wrong dimensionality")
  else
    match index, t.shape, t.stride with
    | i0 :: is, s0 :: ss, _ :: ds =>
      if i0 < 0 ∨ i0 ≥ s0 then .error (.throw "Index out of bounds")
      else indexLoop64 is ss ds i0
    | _, _, _ => .ok 0

/-- Loop of `linear_to_index`, `include/nntile/tile/traits.hh:169-175`. -/
def linearLoop64 : List Int → Int → List Int → M (List Int)
  | [], off, acc => .ok (off :: acc)
  | d :: ds, off, acc => do
    let div ← div64 off d
    let p ← fit64 (div * d)
    let o ← fit64 (off - p)
    linearLoop64 ds o (div :: acc)

/-- `TileTraits::linear_to_index`, `include/nntile/tile/traits.hh:155-178`. -/
def TileTraits.linear_to_index64 (t : TileTraits) (off : Int) : M (List Int) :=
  if off < 0 ∨ off ≥ t.nelems then .error (.throw "Index out of bounds")
  else if t.ndim = 0 then .ok []
  else linearLoop64 t.stride.tail.reverse off []

/-- `TensorTraits::_get_grid_shape`, `include/nntile/tensor/traits.hh:45-57`. -/
def gridShapeLoop64 : List Int → List Int → M (List Int)
  | s :: ss, b :: bs => do
    let a ← fit64 (s - 1)
    let q ← div64 a b
    let g ← fit64 (q + 1)
    let r ← gridShapeLoop64 ss bs
    .ok (g :: r)
  | _, _ => .ok []

/-- `TensorTraits::_get_leftover_shape`, `include/nntile/tensor/traits.hh:58-71`. -/
def leftoverLoop64 : List Int → List Int → List Int → M (List Int)
  | s :: ss, b :: bs, g :: gs => do
    let a ← fit64 (g - 1)
    let p ← fit64 (a * b)
    let l ← fit64 (s - p)
    let r ← leftoverLoop64 ss bs gs
    .ok (l :: r)
  | _, _, _ => .ok []

/-- `TensorTraits::TensorTraits`, `include/nntile/tensor/traits.hh:80-89`. -/
def TensorTraits.make64 (shape basetile : List Int) : M TensorTraits := do
  let t ← TileTraits.make64 shape
  throwIf (basetile.length ≠ t.ndim) "basetile_shape.size() != ndim"
  checkPositive "basetile_shape[i] <= 0" basetile
  let gs ← gridShapeLoop64 shape basetile
  let grid ← TileTraits.make64 gs
  let l ← leftoverLoop64 shape basetile grid.shape
  .ok { toTile := t, basetile_shape := basetile, grid := grid, leftover_shape := l }

/-- Loop of `get_tile_shape`, `include/nntile/tensor/traits.hh:102-114`. -/
def tileShapeLoop64 : List Int → List Int → List Int → List Int → M (List Int)
  | i :: is, g :: gs, b :: bs, l :: ls =>
    if i < 0 ∨ i ≥ g then .error (.throw "Index out of bounds")
    else do
      let k ← fit64 (g - i)
      let r ← tileShapeLoop64 is gs bs ls
      .ok ((if k = 1 then l else b) :: r)
  | _, _, _, _ => .ok []

/-- `TensorTraits::get_tile_shape`, `include/nntile/tensor/traits.hh:91-116`. -/
def TensorTraits.get_tile_shape64 (t : TensorTraits) (tile_index : List Int) : M (List Int) :=
  if tile_index.length ≠ t.toTile.ndim then .error (.throw "Wrong dimensionality")
  else tileShapeLoop64 tile_index t.grid.shape t.basetile_shape t.leftover_shape

/-- `nelems * sizeof(T)`, computed in `size_t` (64 bits, modulo its range). -/
def sizeOf64 (nelems : Int) (s : Nat) : Nat := ((nelems * s) % 2 ^ 64).toNat

/-- `VariableHandle(size, mode)`, `include/nntile/starpu/config.hh:358-395`: the bytes which are registered. -/
def registerBytes (size : Nat) : M Nat := do
  throwIf (size = 0) "Zero size is not supported"
  .ok size

/-- `Tile(shape)` and `Tile(traits)`, `include/nntile/tile/tile.hh:61-72`, with elements of `s` bytes: the bytes which are registered, and which StarPU allocates. The same is registered for every tile of
a `Tensor`, `include/nntile/tensor/tensor.hh:82-84`. -/
def tileBytes (shape : List Int) (s : Nat) : M Nat := do
  let t ← TileTraits.make64 shape
  registerBytes (sizeOf64 t.nelems s)

/-- `Tile::_get_size`, `include/nntile/tile/tile.hh:37-53`. -/
def tileGetSize (nelems ptrNelems : Int) (s : Nat) : M Nat := do
  throwIf (nelems > ptrNelems) "Required memory size is larger than actually allocated memory"
  let size := sizeOf64 nelems s
  throwIf (((size / s : Nat) : Int) ≠ nelems % 2 ^ 64) "Type size_t is not enough to hold size of provided buffer"
  .ok size

/-- `Tile(shape, ptr, ptr_nelems)` and `Tile(traits, ptr, ptr_nelems)`, `include/nntile/tile/tile.hh:73-84`: the bytes of the buffer of the user which are registered. -/
def tilePtrBytes (shape : List Int) (ptrNelems : Int) (s : Nat) : M Nat := do
  let t ← TileTraits.make64 shape
  let size ← tileGetSize t.nelems ptrNelems s
  registerBytes size

end NNTile
