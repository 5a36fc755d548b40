import Verif.Model.Maxsumexp
/-!
# Accumulation in the reduction mode of the runtime (`STARPU_REDUX`)

`include/nntile/tensor/tensor.hh:164-196` registers for every tile an initialisation codelet (`clear`) and an accumulation codelet. A sequence of
tasks that access the tile in mode `STARPU_REDUX` is then executed as the runtime likes: it creates replicas of the tile (cleared by the initialisation
codelet), applies every task of the sequence to the tile itself or to a replica, and merges replicas into the tile or into each other with the
accumulation codelet. This is the behaviour documented for StarPU; the runtime itself is not modelled, an execution is any `RTree`.
-/
namespace NNTile
variable {α : Type}

/-- The two codelets: `init` gets the uninitialised replica, `merge src dst` accumulates `src` into `dst`. -/
structure ReduxCl (α : Type) where
  init : Buf α → M (Buf α)
  merge : Buf α → Buf α → M (Buf α)

/-- `set_reduction_add`, `include/nntile/tensor/tensor.hh:164-173`; `src/starpu/accumulate.cc:28-39`. -/
def reduxAdd [FP α] : ReduxCl α := ⟨clearKernel, fun src dst => addKernel dst.size 1 src 1 dst⟩

/-- `set_reduction_hypot`, `include/nntile/tensor/tensor.hh:175-184`; `src/starpu/accumulate_hypot.cc:28-39`. -/
def reduxHypot [FP α] : ReduxCl α := ⟨clearKernel, fun src dst => hypotKernel dst.size 1 src 1 dst⟩

/-- `set_reduction_maxsumexp`, `include/nntile/tensor/tensor.hh:186-195`; `src/starpu/accumulate_maxsumexp.cc:28-39`. -/
def reduxMse [FP α] : ReduxCl α := ⟨clearKernel, fun src dst => accumulateMaxsumexpKernel (dst.size / 2) src dst⟩

/-- One way to execute a sequence of reduction tasks on a tile. `old`: the tile as it was before; `init`: a new replica; `task r t`: apply task `t` to
`r`; `merge d r`: accumulate `r` into `d`. -/
inductive RTree (α : Type) where
  | old
  | init
  | task (r : RTree α) (t : Task1 α)
  | merge (d r : RTree α)

/-- The contents resulting from the execution `T` on a tile with contents `b`. -/
def RTree.eval (R : ReduxCl α) (s : Store α) (b : Buf α) : RTree α → M (Buf α)
  | .old => .ok b
  | .init => R.init (Buf.undef b.size)
  | .task r t => do
    let c ← r.eval R s b
    t.fn (t.reads.map s) c
  | .merge d r => do
    let d ← d.eval R s b
    let r ← r.eval R s b
    R.merge r d

/-- The executed tasks. -/
def RTree.tasks : RTree α → List (Task1 α)
  | .old => []
  | .init => []
  | .task r t => t :: r.tasks
  | .merge d r => d.tasks ++ r.tasks

/-- How many times the previous contents take part. -/
def RTree.olds : RTree α → Nat
  | .old => 1
  | .init => 0
  | .task r _ => r.olds
  | .merge d r => d.olds + r.olds

/-- How the tasks on one tile, in order of submission, are executed: a task in another mode is executed on its own, a group of consecutive tasks in
mode `STARPU_REDUX` by a tree. -/
inductive Plan (α : Type) where
  | done
  | one (t : Task1 α) (p : Plan α)
  | group (T : RTree α) (p : Plan α)

/-- `p` is an execution of the tasks `ts`: each task once, the old contents once in each group. -/
def Plan.Of : Plan α → List (Task1 α) → Prop
  | .done, ts => ts = []
  | .one t p, ts => t.mode ≠ .REDUX ∧ ∃ ts', ts = t :: ts' ∧ p.Of ts'
  | .group T p, ts => ∃ g ts', ts = g ++ ts' ∧ g ≠ [] ∧ T.tasks.Perm g ∧ (∀ t ∈ g, t.mode = .REDUX) ∧ T.olds = 1 ∧ p.Of ts'

/-- The contents after all tasks; the other tiles, which the tasks read, are taken from `s`. -/
def Plan.run (R : ReduxCl α) (s : Store α) : Plan α → Buf α → M (Buf α)
  | .done, b => .ok b
  | .one t p, b => do
    let b ← t.fn (t.reads.map s) (match t.mode with
      | .W => Buf.undef b.size
      | _ => b)
    p.run R s b
  | .group T p, b => do
    let b ← T.eval R s b
    p.run R s b

end NNTile
