import Verif.Model.Tile
/-! # Specification: a tile is a tensor of one tile -/
namespace NNTile
variable {α : Type}

/-- The tensor whose only tile is the given one. -/
def Tile.one (T : Tile) : Tensor := ⟨T.id, T.shape, T.shape⟩

/-- Two calls have the same outcome: both throw, or both have undefined behaviour, or both succeed and their submitted tasks, executed on the same
contents of all handles, give the same result. -/
def SameOutcome (p q : M (List (Task1 α))) : Prop :=
  (Throws p ∧ Throws q) ∨ (IsUB p ∧ IsUB q) ∨ ∃ a b, p = .ok a ∧ q = .ok b ∧ ∀ s, runAll1 a s = runAll1 b s

/-- The same for operations with several outputs. -/
def SameOutcomeT (p q : M (List (Task α))) : Prop :=
  (Throws p ∧ Throws q) ∨ (IsUB p ∧ IsUB q) ∨ ∃ a b, p = .ok a ∧ q = .ok b ∧ ∀ s, runAll a s = runAll b s

end NNTile
