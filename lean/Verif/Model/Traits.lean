import Verif.Model.Core
/-!
# `TileTraits`, `TensorTraits`, tile table of `Tensor`, block-cyclic distribution

`Index` (`int64_t`) is modelled by the unbounded `Int`; `std::vector<Index>` by `List Int`.
-/
namespace NNTile

/-- `class TileTraits`, `include/nntile/tile/traits.hh:29-76` (data members). `matrix_shape[i]` is split into its two columns:
`rows[i] = matrix_shape[i][0]`, `cols[i] = matrix_shape[i][1]`. -/
structure TileTraits where
  ndim : Nat
  shape : List Int
  stride : List Int
  nelems : Int
  rows : List Int
  cols : List Int
  deriving DecidableEq, Repr

/-- `TileTraits::_check_shape`, `traits.hh:44-56`: throws on the first non-positive extent. -/
def checkPositive (msg : String) : List Int → M Unit
  | [] => .ok ()
  | s :: ss => if s ≤ 0 then .error (.throw msg) else checkPositive msg ss

/-- First loop of the constructor, `traits.hh:88-94`: `tmp *= shape[i-1]; matrix_shape[i][0] = tmp;`. Returns the stored values
and the final `tmp`. -/
def rowsLoop (tmp : Int) : List Int → List Int × Int
  | [] => ([], tmp)
  | s :: ss =>
    let r := rowsLoop (tmp * s) ss
    ((tmp * s) :: r.1, r.2)

/-- Second loop of the constructor, `traits.hh:98-104`, which runs from the last dimension down:
`tmp *= shape[i-1]; matrix_shape[i-1][1] = tmp;`. Returns `matrix_shape[i..ndim][1]`, whose head is the current `tmp`. -/
def colsLoop : List Int → List Int
  | [] => [1]
  | s :: ss =>
    let r := colsLoop ss
    (r.headD 1 * s) :: r

/-- `TileTraits::TileTraits`, `traits.hh:79-110`. -/
def TileTraits.make (shape : List Int) : M TileTraits := do
  checkPositive "shape[i] <= 0" shape
  let r := rowsLoop 1 shape
  let rows := 1 :: r.1
  .ok { ndim := shape.length
        shape := shape
        nelems := r.2
        rows := rows
        cols := colsLoop shape
        stride := rows.take shape.length }

/-- Loop of `index_to_linear`, `traits.hh:137-144`, over the remaining dimensions. -/
def indexLoop : List Int → List Int → List Int → Int → M Int
  | i :: is, s :: ss, d :: ds, acc =>
    if i < 0 ∨ i ≥ s then .error (.throw "Index out of bounds")
    else indexLoop is ss ds (acc + i * d)
  | _, _, _, acc => .ok acc

/-- `TileTraits::index_to_linear`, `traits.hh:119-146`. -/
def TileTraits.index_to_linear (t : TileTraits) (index : List Int) : M Int :=
  if index.length ≠ t.ndim then .error (.throw "Wrong dimensionality")
  else
    match index, t.shape, t.stride with
    | i0 :: is, s0 :: ss, _ :: ds =>
      if i0 < 0 ∨ i0 ≥ s0 then .error (.throw "Index out of bounds")
      else indexLoop is ss ds i0
    | _, _, _ => .ok 0

/-- Loop of `linear_to_index`, `traits.hh:169-174`, over the strides `stride[ndim-1], ..., stride[1]`; finally
`index[0] = linear_offset` (line 175). C++ integer division truncates (`Int.tdiv`) and is undefined for a zero divisor. -/
def linearLoop : List Int → Int → List Int → M (List Int)
  | [], off, acc => .ok (off :: acc)
  | d :: ds, off, acc =>
    if d = 0 then .error (.ub "division by zero")
    else
      let div := off.tdiv d
      linearLoop ds (off - div * d) (div :: acc)

/-- `TileTraits::linear_to_index`, `traits.hh:155-178`. -/
def TileTraits.linear_to_index (t : TileTraits) (off : Int) : M (List Int) :=
  if off < 0 ∨ off ≥ t.nelems then .error (.throw "Index out of bounds")
  else if t.ndim = 0 then .ok []
  else linearLoop t.stride.tail.reverse off []

/-- Loop of `contains_index`, `traits.hh:185-191`. -/
def containsLoop : List Int → List Int → Bool
  | i :: is, s :: ss => if i < 0 ∨ i ≥ s then false else containsLoop is ss
  | _, _ => true

/-- `TileTraits::contains_index`, `traits.hh:179-193`. -/
def TileTraits.contains_index (t : TileTraits) (index : List Int) : M Bool :=
  if index.length ≠ t.ndim then .error (.throw "Invalid dimensionality")
  else .ok (containsLoop index t.shape)

/-- `class TensorTraits : public TileTraits`, `include/nntile/tensor/traits.hh:25-77`. `toTile` is the base class subobject. -/
structure TensorTraits where
  toTile : TileTraits
  basetile_shape : List Int
  grid : TileTraits
  leftover_shape : List Int
  deriving DecidableEq, Repr

/-- `TensorTraits::_get_grid_shape`, `tensor/traits.hh:45-57`; division by zero would be undefined. (Both arguments have `ndim`
entries when it is called.) -/
def gridShapeLoop : List Int → List Int → M (List Int)
  | s :: ss, b :: bs =>
    if b = 0 then .error (.ub "division by zero")
    else do
      let r ← gridShapeLoop ss bs
      .ok (((s - 1).tdiv b + 1) :: r)
  | _, _ => .ok []

/-- `TensorTraits::_get_leftover_shape`, `tensor/traits.hh:58-71`. -/
def leftoverLoop : List Int → List Int → List Int → List Int
  | s :: ss, b :: bs, g :: gs => (s - (g - 1) * b) :: leftoverLoop ss bs gs
  | _, _, _ => []

/-- `TensorTraits::TensorTraits`, `tensor/traits.hh:80-89` (with `_get_basetile_shape`, lines 27-44). -/
def TensorTraits.make (shape basetile : List Int) : M TensorTraits := do
  let t ← TileTraits.make shape
  if basetile.length ≠ t.ndim then .error (.throw "basetile_shape.size() != ndim")
  else do
    checkPositive "basetile_shape[i] <= 0" basetile
    let gs ← gridShapeLoop shape basetile
    let grid ← TileTraits.make gs
    .ok { toTile := t, basetile_shape := basetile, grid := grid,
          leftover_shape := leftoverLoop shape basetile grid.shape }

/-- Loop of `get_tile_shape`, `tensor/traits.hh:102-114`. -/
def tileShapeLoop : List Int → List Int → List Int → List Int → M (List Int)
  | i :: is, g :: gs, b :: bs, l :: ls =>
    if i < 0 ∨ i ≥ g then .error (.throw "Index out of bounds")
    else do
      let r ← tileShapeLoop is gs bs ls
      .ok ((if g - i = 1 then l else b) :: r)
  | _, _, _, _ => .ok []

/-- `TensorTraits::get_tile_shape`, `tensor/traits.hh:91-116`. -/
def TensorTraits.get_tile_shape (t : TensorTraits) (tile_index : List Int) : M (List Int) :=
  if tile_index.length ≠ t.toTile.ndim then .error (.throw "Wrong dimensionality")
  else tileShapeLoop tile_index t.grid.shape t.basetile_shape t.leftover_shape

/-- `class Tensor` restricted to its integer metadata: `include/nntile/tensor/tensor.hh:44-57`. Handles are not part of it. -/
structure TensorMeta where
  traits : TensorTraits
  tile_traits : List TileTraits
  tile_distr : List Int
  deriving DecidableEq, Repr

/-- Body of the loop of the `Tensor` constructor, `tensor.hh:72-90`, for tiles `0..n-1` (no handles, no MPI tags). -/
def tileTraitsLoop (tr : TensorTraits) : Nat → M (List TileTraits)
  | 0 => .ok []
  | n + 1 => do
    let l ← tileTraitsLoop tr n
    let idx ← tr.grid.linear_to_index n
    let shape ← tr.get_tile_shape idx
    let t ← TileTraits.make shape
    .ok (l ++ [t])

/-- `Tensor::Tensor`, `tensor.hh:58-91`. -/
def TensorMeta.make (tr : TensorTraits) (distribution : List Int) : M TensorMeta :=
  if (distribution.length : Int) ≠ tr.grid.nelems then .error (.throw "Wrong distribution")
  else do
    let l ← tileTraitsLoop tr tr.grid.nelems.toNat
    .ok { traits := tr, tile_traits := l, tile_distr := distribution }

/-- `Tensor::get_tile(Index)`, `tensor.hh:92-100` (traits of the returned tile). -/
def TensorMeta.get_tile (t : TensorMeta) (off : Int) : M TileTraits :=
  if off < 0 ∨ off ≥ t.traits.grid.nelems then .error (.throw "Tile offset is out of bounds")
  else match t.tile_traits[off.toNat]? with
    | some x => .ok x
    | none => .error (.ub "vector access out of bounds")

/-- `Tensor::get_tile_traits(Index)`, `tensor.hh:107-110`: no bounds check, undefined behaviour outside of the vector. -/
def TensorMeta.get_tile_traits (t : TensorMeta) (off : Int) : M TileTraits :=
  if off < 0 then .error (.ub "vector access out of bounds")
  else match t.tile_traits[off.toNat]? with
    | some x => .ok x
    | none => .error (.ub "vector access out of bounds")

/-- `Tensor::get_tile(const std::vector<Index>&)` and `get_tile_traits(const std::vector<Index>&)`,
`tensor.hh:101-106,111-116`. -/
def TensorMeta.get_tile_at (t : TensorMeta) (idx : List Int) : M TileTraits := do
  let off ← t.traits.grid.index_to_linear idx
  t.get_tile_traits off

/-- Loop `index[j] %= mpi_grid[j]`, `src/tensor/distributions.cc:48-51`; `%` truncates (`Int.tmod`), undefined for zero. -/
def modLoop : List Int → List Int → M (List Int)
  | i :: is, g :: gs =>
    if g = 0 then .error (.ub "modulo by zero")
    else do
      let r ← modLoop is gs
      .ok (i.tmod g :: r)
  | _, _ => .ok []

/-- `distributions.cc:53-57`: `mpi_rank = index[ndim-1]; for(j = ndim-2; j >= 0; --j) mpi_rank = mpi_rank*mpi_grid[j]+index[j]`,
as a recursion from the last dimension. `index[ndim-1]` with `ndim = 0` is out of bounds. -/
def rankLoop : List Int → List Int → M Int
  | [], _ => .error (.ub "index[-1]")
  | [i], _ => .ok i
  | i :: is, g :: gs => do
    let r ← rankLoop is gs
    .ok (r * g + i)
  | _ :: _, [] => .error (.ub "mpi_grid out of bounds")

/-- Loop over all tiles, `distributions.cc:43-59`, for tiles `0..n-1`. `start_rank < max_rank` and `start_rank >= 0` give
`max_rank > 0`, so the last `%` is defined. -/
def blockCyclicLoop (traits : TileTraits) (mpi_grid : List Int) (start_rank max_rank : Int) : Nat → M (List Int)
  | 0 => .ok []
  | n + 1 => do
    let l ← blockCyclicLoop traits mpi_grid start_rank max_rank n
    let index ← traits.linear_to_index n
    let index ← modLoop index mpi_grid
    let r ← rankLoop index mpi_grid
    .ok (l ++ [(r + start_rank).tmod max_rank])

/-- `distributions::block_cyclic`, `src/tensor/distributions.cc:25-61`. `int` is modelled by `Int`. -/
def block_cyclic (tensor_grid mpi_grid : List Int) (start_rank max_rank : Int) : M (List Int) :=
  if tensor_grid.length ≠ mpi_grid.length then .error (.throw "Wrong number of dimensions")
  else if start_rank < 0 ∨ start_rank ≥ max_rank then .error (.throw "Invalid starting rank")
  else do
    let traits ← TileTraits.make tensor_grid
    blockCyclicLoop traits mpi_grid start_rank max_rank traits.nelems.toNat

end NNTile
