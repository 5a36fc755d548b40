import Verif.Model.Numpy
import Verif.Model.Tile
/-!
# Exchange of single tiles with numpy, `wrappers/python/nntile/nntile_core.cc`

As in `Model/Numpy.lean`, a numpy array is described by its shape and its memory in Fortran order.
-/
namespace NNTile
variable {α : Type}

/-- The checks for other tiles, `wrappers/python/nntile/nntile_core.cc:101-111,143-153`. -/
def npCheckTile (T : Tile) (shape : List Nat) : M Unit := do
  throwIf (T.ndim ≠ shape.length) "tile.ndim != array.ndim()"
  forN T.ndim (fun i _ => throwIf (shape.getD i 0 ≠ T.shape.getD i 0) "array.shape()[i] != tile.shape[i]") ()

/-- `tile_from_array`, `wrappers/python/nntile/nntile_core.cc:77-117`. After `acquire(STARPU_W)` the old contents are undefined. -/
def tileFromArray (T : Tile) (array : NpArray α) (s : Store α) : M (Store α) :=
  if T.ndim = 0 then do
    npCheckScalar array.shape
    let b ← memcpyElems 1 array.data (Buf.undef (s T.handle).size)
    .ok (s.set T.handle b)
  else do
    npCheckTile T array.shape
    let b ← memcpyElems T.nelems array.data (Buf.undef (s T.handle).size)
    .ok (s.set T.handle b)

/-- `tile_to_array`, `wrappers/python/nntile/nntile_core.cc:119-159`: the new contents of the array. -/
def tileToArray (T : Tile) (array : NpArray α) (s : Store α) : M (NpArray α) :=
  if T.ndim = 0 then do
    npCheckScalar array.shape
    let b ← memcpyElems 1 (s T.handle) array.data
    .ok ⟨array.shape, b⟩
  else do
    npCheckTile T array.shape
    let b ← memcpyElems T.nelems (s T.handle) array.data
    .ok ⟨array.shape, b⟩

end NNTile
