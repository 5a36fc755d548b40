import Verif.Model.Core
import Verif.Spec.Index
/-!
# Tile tasks, the store of tiles, tensors

Tensor-level functions of `/repo/src/tensor/*.cc` submit StarPU tasks (`starpu_task_insert` in `/repo/src/starpu/*.cc:submit`). A task
names the handles of the tiles it accesses and the access mode of each. MPI is disabled in the modelled commit
(`include/nntile/starpu/config.hh:24-50`: one node, rank 0), so every `if(mpi_rank == tile_rank)` of the tensor functions is true and
`mpi_transfer`/`mpi_flush` do nothing.
-/
namespace NNTile

/-- A StarPU data handle: tile number `.2` of the tensor with identity `.1`. Each tile of each tensor registers its own handle
(`include/nntile/tensor/tensor.hh:72-90`). -/
abbrev Handle := Nat × Nat

/-- Contents of all registered handles. -/
abbrev Store (α : Type _) := Handle → Buf α

/-- Access mode of a handle that a task may write: `STARPU_W` (old contents undefined), `STARPU_RW`, `STARPU_REDUX`
(`include/nntile/starpu/config.hh:115-118`: `STARPU_RW_COMMUTE` is `STARPU_RW`). -/
inductive WMode where
  | W
  | RW
  | REDUX
  deriving DecidableEq, Repr

/-- A submitted task. `reads`: handles in mode `STARPU_R`; `writes`: handles in a writing mode; `run` is the codelet function applied
to the contents of the read and the written handles; it returns the new contents of the written handles. (`STARPU_SCRATCH` handles are
local variables of `run`.) -/
structure Task (α : Type _) where
  codelet : String
  reads : List Handle
  writes : List (Handle × WMode)
  run : List (Buf α) → List (Buf α) → M (List (Buf α))

variable {α : Type _}

/-- Update of several handles. -/
def Store.setAll (s : Store α) : List Handle → List (Buf α) → Store α
  | h :: hs, b :: bs => fun k => if k = h then b else Store.setAll s hs bs k
  | _, _ => s

/-- What the codelet sees of a written handle: with `STARPU_W` the contents are undefined. -/
def Store.view (s : Store α) (a : Handle × WMode) : Buf α :=
  match a.2 with
  | .W => Buf.undef (s a.1).size
  | .RW => s a.1
  | .REDUX => s a.1

/-- Handles written by the task. -/
def Task.outs (t : Task α) : List Handle := t.writes.map Prod.fst

/-- Execution of one task. A handle which is written must not be passed to the task a second time (otherwise the outcome is
undefined). In sequential execution `STARPU_REDUX` behaves as `STARPU_RW` (replicas: see `Verif/Model/Redux.lean`). -/
def Task.exec (t : Task α) (s : Store α) : M (Store α) :=
  if ¬ t.outs.Nodup ∨ (∃ h ∈ t.outs, h ∈ t.reads) then .error (.ub "aliased handles")
  else do
    let out ← t.run (t.reads.map s) (t.writes.map s.view)
    .ok (s.setAll t.outs out)

/-- Sequential execution in submission order. -/
def runAll : List (Task α) → Store α → M (Store α)
  | [], s => .ok s
  | t :: ts, s => do
    let s ← t.exec s
    runAll ts s

/-- A task with exactly one written handle (all kernels except the multi-output ones). -/
structure Task1 (α : Type _) where
  codelet : String
  reads : List Handle
  out : Handle
  mode : WMode
  fn : List (Buf α) → Buf α → M (Buf α)

/-- As a general task. -/
def Task1.toTask (t : Task1 α) : Task α :=
  { codelet := t.codelet
    reads := t.reads
    writes := [(t.out, t.mode)]
    run := fun rs ws =>
      match ws with
      | [b] => do
        let b ← t.fn rs b
        .ok [b]
      | _ => .error (.ub "wrong number of buffers") }

/-- Sequential execution of single-output tasks. -/
def runAll1 (ts : List (Task1 α)) (s : Store α) : M (Store α) := runAll (ts.map Task1.toTask) s

/-- A loop that submits tasks: `for(Index i = 0; i < n; ++i) f(i);`. -/
def forTasks {τ : Type _} : Nat → (Nat → M (List τ)) → M (List τ)
  | 0, _ => .ok []
  | n + 1, f => do
    let l ← forTasks n f
    let l' ← f n
    .ok (l ++ l')

/-- A constructed tensor (`include/nntile/tensor/tensor.hh:44-91`): the constructor guarantees positive `shape` and `basetile` of equal
length (theorems C02, C04), so they are natural numbers here. `id` stands for the vector of handles. -/
structure Tensor where
  id : Nat
  shape : List Nat
  basetile : List Nat
  deriving DecidableEq, Repr

namespace Tensor

/-- Invariant established by the constructor (`C04_traits_accept_iff`). -/
def WF (T : Tensor) : Prop := Pos T.shape ∧ Pos T.basetile ∧ T.basetile.length = T.shape.length

instance (T : Tensor) : Decidable T.WF := inferInstanceAs (Decidable (_ ∧ _ ∧ _))

/-- `ndim`. -/
def ndim (T : Tensor) : Nat := T.shape.length
/-- `grid.shape`, `include/nntile/tensor/traits.hh:45-57` (equal to the `Int` model by `gridShapeLoop_nat`). -/
def grid (T : Tensor) : List Nat := gridOf T.shape T.basetile
/-- `grid.nelems`. -/
def ntiles (T : Tensor) : Nat := T.grid.prod
/-- Shape of the tile with the given grid index: `get_tile_traits(index).shape` (equal to the `Int` model by `get_tile_shape_nat`,
`C04_tensor`). -/
def tshape (T : Tensor) (t : List Nat) : List Nat := tileShape T.shape T.basetile t
/-- `grid.linear_to_index(i)` (equal to the `Int` model by `l2i_nat`; the loops call it with `0 <= i < grid.nelems` only). -/
def tindex (T : Tensor) (i : Nat) : List Nat := unlin T.grid i
/-- Shape of tile number `i`: `get_tile_traits(i).shape`. -/
def tshapeL (T : Tensor) (i : Nat) : List Nat := T.tshape (T.tindex i)

/-- `get_tile_handle(Index)`, `tensor.hh:117-120`: no bounds check. -/
def handleL (T : Tensor) (i : Nat) : M Handle :=
  if i < T.ntiles then .ok (T.id, i) else .error (.ub "vector access out of bounds")

/-- `get_tile_handle(const std::vector<Index>&)`, `tensor.hh:121-126`: throws outside of the grid. -/
def handleAt (T : Tensor) (t : List Nat) : M Handle :=
  if InBox T.grid t then .ok (T.id, lin T.grid t) else .error (.throw "Index out of bounds")

/-- `get_tile_traits(const std::vector<Index>&)`, `tensor.hh:111-116` (shape of the tile): throws outside of the grid. -/
def tshapeAt (T : Tensor) (t : List Nat) : M (List Nat) :=
  if InBox T.grid t then .ok (T.tshape t) else .error (.throw "Index out of bounds")

/-! ### Specification side: reading a tensor element by element -/

/-- Handle of the tile holding element `I`. -/
def hOf (T : Tensor) (I : List Nat) : Handle := (T.id, lin T.grid (tileIdx T.basetile I))
/-- Offset of element `I` inside of its tile. -/
def oOf (T : Tensor) (I : List Nat) : Nat := lin (T.tshape (tileIdx T.basetile I)) (locIdx T.basetile I)

/-- The value of the tensor at the global multi-index `I`: look into the tile `I / basetile` at the column-major position of
`I % basetile`. `none` = undefined. -/
def get (T : Tensor) (s : Store α) (I : List Nat) : Option α := (s (T.hOf I)).data (T.oOf I)

/-- Every tile of the tensor has the number of elements of its shape. -/
def Alloc (T : Tensor) (s : Store α) : Prop := ∀ i, i < T.ntiles → (s (T.id, i)).size = (T.tshapeL i).prod

/-- Every element of the tensor has a defined value. -/
def Defined (T : Tensor) (s : Store α) : Prop := ∀ I, InBox T.shape I → ∃ v, T.get s I = some v

end Tensor

/-- Nothing but the tensors with the given identities has changed. -/
def OnlyChanged (ids : List Nat) (s s' : Store α) : Prop := ∀ h : Handle, h.1 ∉ ids → s' h = s h

end NNTile
