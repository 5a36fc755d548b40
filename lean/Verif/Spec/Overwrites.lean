import Verif.Spec.Ops
/-!
# Operations that ignore what their result held before

A tile that is submitted in write-only mode has undefined contents when the task starts (`Store.view`), and reading an undefined element is undefined
behaviour (`Buf.rd`).
-/
namespace NNTile
variable {α : Type}

/-- The tensor has just been created (or invalidated): it is allocated, all of its elements are undefined. -/
def Tensor.Fresh (T : Tensor) (s : Store α) : Prop := T.Ready s ∧ ∀ I, InBox T.shape I → T.get s I = none

/-- The operation gives `dst` the same values whatever `dst` contains before, in particular if its contents are undefined: for every store that differs
from `s` in the contents of `dst` only, the function returns without exception, its tasks run without undefined behaviour (so they read no undefined
element), all elements of `dst` are defined afterwards, with values that do not depend on the old contents, and nothing else has changed. -/
def Overwrites (async : M (List (Task1 α))) (s : Store α) (dst : Tensor) : Prop :=
  ∃ v : List Nat → α, ∀ s₀ : Store α, OnlyChanged [dst.id] s s₀ → dst.Ready s₀ → Computes async s₀ dst v

/-- The store after the contents of the tensor with this identity were lost. -/
def Store.wipe (s : Store α) (id : Nat) : Store α := fun h => if h.1 = id then Buf.undef (s h).size else s h

end NNTile
