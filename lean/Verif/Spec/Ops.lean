import Verif.Model.Task
/-!
# How results of tensor operations are stated
-/
namespace NNTile
variable {α : Type}

/-- The tensor holds the values `x`: its element with global index `I` has the (defined) value `x I`. -/
def Tensor.Holds (T : Tensor) (s : Store α) (x : List Nat → α) : Prop := ∀ I, InBox T.shape I → T.get s I = some (x I)

/-- A properly constructed tensor whose tiles are registered in the store with their sizes. -/
def Tensor.Ready (T : Tensor) (s : Store α) : Prop := T.WF ∧ T.Alloc s

/-- `src` is another tensor than `dst`, of the same shape and cut into tiles in the same way. -/
def Tensor.Like (src dst : Tensor) : Prop := src.id ≠ dst.id ∧ src.shape = dst.shape ∧ src.basetile = dst.basetile

/-- `src` has the shape and tiling of `dst` without dimension `axis`. -/
structure Tensor.SliceOf (src dst : Tensor) (a : Nat) : Prop where
  axis : a < dst.shape.length
  shape : src.shape = dst.shape.eraseIdx a
  basetile : src.basetile = dst.basetile.eraseIdx a

/-- `src` has dimension `a` of `dst` followed by the last `b` dimensions of `dst` (batch), with the same tiling; `a` is not one of the
batch dimensions. -/
structure Tensor.FiberOf (src dst : Tensor) (a b : Nat) : Prop where
  axis : a + b < dst.shape.length
  shape : src.shape = dst.shape.getD a 0 :: dst.shape.drop (dst.shape.length - b)
  basetile : src.basetile = dst.basetile.getD a 0 :: dst.basetile.drop (dst.shape.length - b)

/-- The fiber index belonging to the index `I`: its entry `a` and its last `b` entries. -/
def fiberIdx (a b : Nat) (I : List Nat) : List Nat := I.getD a 0 :: I.drop (I.length - b)

/-- `dst` has the shape and tiling of `src` with the first `nd` dimensions moved behind the others. -/
structure Tensor.TransposeOf (src dst : Tensor) (nd : Nat) : Prop where
  pos : 0 < nd
  lt : nd < src.shape.length
  shape : dst.shape = src.shape.drop nd ++ src.shape.take nd
  basetile : dst.basetile = src.basetile.drop nd ++ src.basetile.take nd

/-- The asynchronous tensor function returns without exception, all of the tasks it submitted can be executed without undefined behaviour,
and afterwards `dst` holds the values `v` and no tile of another tensor has changed. (By C26 the same holds for every schedule.) -/
def Computes (async : M (List (Task1 α))) (s : Store α) (dst : Tensor) (v : List Nat → α) : Prop :=
  ∃ tasks s', async = .ok tasks ∧ runAll1 tasks s = .ok s' ∧ dst.Holds s' v ∧ OnlyChanged [dst.id] s s' ∧ dst.Ready s'

end NNTile
