import Verif.Model.Redux
/-!
# Executions of whole programs in which tiles have replicas

The tasks of a program, in the order of their submission, access tiles in the modes `R`, `W`, `RW` and `REDUX`. As documented for StarPU, the runtime may start a task as soon as all earlier tasks with
which it conflicts are done; two tasks which access the same tile in mode `REDUX` do not conflict because of this. A task in mode `REDUX` works on the tile itself or on one of its replicas. A new replica
is made by the initialisation codelet of the tile when a task needs it, two replicas are merged by the accumulation codelet at any time, and all replicas are merged into the tile before it is accessed
in another mode. The runtime itself is not modelled: an execution is any sequence of the steps `RStep`. `include/nntile/tensor/tensor.hh:164-196` registers the codelets.
-/
namespace NNTile
variable {α : Type}

/-- The later of two tasks has to wait for the earlier one. -/
def Task1.Waits (t u : Task1 α) : Prop := (t.out = u.out ∧ ¬ (t.mode = .REDUX ∧ u.mode = .REDUX)) ∨ t.out ∈ u.reads ∨ u.out ∈ t.reads

/-- The tiles, their replicas, and the numbers of the tasks which are done, the last one first. -/
structure RState (α : Type) where
  main : Store α
  reps : Handle → List (Buf α)
  done : List Nat

/-- Replacement of the replicas of a tile. -/
def RState.withReps (σ : RState α) (h : Handle) (l : List (Buf α)) : RState α := { σ with reps := fun k => if k = h then l else σ.reps k }

/-- Replacement of the contents of a tile. -/
def RState.withMain (σ : RState α) (h : Handle) (b : Buf α) : RState α := { σ with main := fun k => if k = h then b else σ.main k }

/-- Task number `i` is done. -/
def RState.withDone (σ : RState α) (i : Nat) : RState α := { σ with done := i :: σ.done }

/-- Task number `i`, which is `t`, can be started. -/
def RState.Enabled (ts : List (Task1 α)) (σ : RState α) (i : Nat) (t : Task1 α) : Prop :=
  ts[i]? = some t ∧ i ∉ σ.done ∧ (∀ j u, j < i → ts[j]? = some u → u.Waits t → j ∈ σ.done) ∧ ∀ h ∈ t.reads, σ.reps h = []

/-- One step of the runtime. The outcome is the next state, or undefined behaviour (or an exception) in the codelet. `R h`: the codelets registered for the tile `h`. -/
inductive RStep (ts : List (Task1 α)) (R : Handle → ReduxCl α) (σ : RState α) : M (RState α) → Prop
  /-- A task in a mode other than `REDUX`. -/
  | plain {i : Nat} {t : Task1 α} (e : σ.Enabled ts i t) (hm : t.mode ≠ .REDUX) (hr : σ.reps t.out = []) : RStep ts R σ (do
      let s ← t.toTask.exec σ.main
      .ok { σ.withDone i with main := s })
  /-- A task in mode `REDUX` on the tile itself. -/
  | onTile {i : Nat} {t : Task1 α} (e : σ.Enabled ts i t) (hm : t.mode = .REDUX) : RStep ts R σ (do
      let s ← t.toTask.exec σ.main
      .ok { σ.withDone i with main := s })
  /-- A task in mode `REDUX` on a new replica. -/
  | onNew {i : Nat} {t : Task1 α} (e : σ.Enabled ts i t) (hm : t.mode = .REDUX) : RStep ts R σ (do
      let b ← (R t.out).init (Buf.undef (σ.main t.out).size)
      let b ← t.fn (t.reads.map σ.main) b
      .ok ((σ.withReps t.out (b :: σ.reps t.out)).withDone i))
  /-- A task in mode `REDUX` on a replica. -/
  | onReplica {i : Nat} {t : Task1 α} {l l' : List (Buf α)} {b : Buf α} (e : σ.Enabled ts i t) (hm : t.mode = .REDUX) (hr : σ.reps t.out = l ++ b :: l') : RStep ts R σ (do
      let b ← t.fn (t.reads.map σ.main) b
      .ok ((σ.withReps t.out (l ++ b :: l')).withDone i))
  /-- A replica is merged into the tile. -/
  | merge {h : Handle} {l l' : List (Buf α)} {c : Buf α} (hr : σ.reps h = l ++ c :: l') : RStep ts R σ (do
      let b ← (R h).merge c (σ.main h)
      .ok ((σ.withReps h (l ++ l')).withMain h b))
  /-- A replica `c` is merged into the replica `d`. -/
  | mergeReplicas {h : Handle} {l l' k k' : List (Buf α)} {c d : Buf α} (hr : σ.reps h = l ++ c :: l') (hd : l ++ l' = k ++ d :: k') : RStep ts R σ (do
      let b ← (R h).merge c d
      .ok (σ.withReps h (k ++ b :: k')))

/-- The states which can be reached from the contents `s`. -/
inductive RReach (ts : List (Task1 α)) (R : Handle → ReduxCl α) (s : Store α) : RState α → Prop
  | start : RReach ts R s ⟨s, fun _ => [], []⟩
  | step {σ σ' : RState α} (h : RReach ts R s σ) (e : RStep ts R σ (.ok σ')) : RReach ts R s σ'

/-- All tasks are done and all replicas are merged. -/
def RState.Final (ts : List (Task1 α)) (σ : RState α) : Prop := (∀ i, i < ts.length → i ∈ σ.done) ∧ ∀ h, σ.reps h = []

end NNTile
