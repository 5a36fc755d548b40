import Verif.Model.Elementwise
/-!
# Building blocks of the Python layers, losses, models and optimizers

A method such as `forward_async` of a layer calls asynchronous tensor functions one after another; the tasks are collected in the order of
submission. If one of the calls raises an exception, so does the method (the tasks already submitted are not described in that case).
-/
namespace NNTile
variable {α : Type}

/-- Consecutive statements `f_async(...); g_async(...); ...` of a Python method. -/
def seqAsync : List (M (List (Task1 α))) → M (List (Task1 α))
  | [] => .ok []
  | p :: ps => do
    let t ← p
    let ts ← seqAsync ps
    .ok (t ++ ts)

/-- `TensorMoments`, `wrappers/python/nntile/tensor.py:30-48`. A missing gradient (`None`) is only used together with
`grad_required = False`, the field `grad` is then meaningless. -/
structure Moments where
  value : Tensor
  grad : Tensor
  gradRequired : Bool

/-- `if flag:` followed by one call. -/
def whenAsync (c : Bool) (p : M (List (Task1 α))) : M (List (Task1 α)) := if c then p else .ok []

/-- `Tensor::invalidate_submit`, `include/nntile/tensor/tensor.hh:136-144`. In the modelled commit the call of
`starpu_data_invalidate_submit` is commented out (`enabled = false`). With `enabled = true` this is the meaning of that call: afterwards the
contents of the tiles are undefined. `wont_use` (`tensor.hh:146-154`) does nothing in either case. -/
def invalidateAsync (enabled : Bool) (T : Tensor) : M (List (Task1 α)) :=
  if enabled then loop0 T (fun _ h => task0 "invalidate" .W h (fun b => .ok b)) else .ok []

/-- Construction of a tensor: `TensorTraits(shape, basetile)` throws unless `shape` and `basetile` have the same length and only positive elements
(`C04_traits_accept_iff`). `id` is the identity of the new tensor. -/
def newTensor (id : Nat) (shape basetile : List Nat) : M Tensor := do
  throwIf (¬ (Tensor.mk id shape basetile).WF) "TensorTraits"
  .ok ⟨id, shape, basetile⟩

/-- Indexing of a Python list: negative indices count from the end, other indices out of range raise `IndexError`. -/
def pyIndex (l : List Nat) (i : Int) : M Nat := do
  let j := if i < 0 then i + l.length else i
  throwIf (j < 0 ∨ l.length ≤ j) "IndexError"
  .ok (l.getD j.toNat 0)

/-- Python slices `l[:i]` and `l[i:]`: a negative `i` counts from the end, too large values are cut. -/
def pyTake (l : List Nat) (i : Int) : List Nat := l.take (if i < 0 then i + l.length else i).toNat
def pyDrop (l : List Nat) (i : Int) : List Nat := l.drop (if i < 0 then i + l.length else i).toNat

end NNTile
