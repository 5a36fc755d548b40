import Verif.Spec.Ops
import Verif.Spec.Box
/-!
# Embedding
-/
namespace NNTile

/-- `index`, `vocab` and `embed` fit for axis `a`: `index` has the dimensions of `embed` without `a`, `vocab` is a matrix whose columns are the vectors of
the tokens, all in one column of tiles, and the tiling of the vectors in `vocab` refines that in `embed`. -/
structure EmbedFit (index vocab embed : Tensor) (a : Nat) : Prop where
  index : index.SliceOf embed a
  ndim : vocab.shape.length = 2
  size : vocab.shape.getD 0 0 = embed.shape.getD a 0
  tokens : vocab.shape.getD 1 0 ≤ vocab.basetile.getD 1 0
  tile : vocab.basetile.getD 0 0 ∣ embed.basetile.getD a 0

/-- All entries of `index` are numbers of columns of `vocab`. -/
def TokensOk (index vocab : Tensor) {α : Type} (asIdx : α → Int) (w : List Nat → α) : Prop :=
  ∀ J, InBox index.shape J → 0 ≤ asIdx (w J) ∧ asIdx (w J) < vocab.shape.getD 1 0

end NNTile
