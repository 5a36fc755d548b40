import Verif.Lib.Schedule
/-!
# Tasks run while the program submits more of them

`C26` looks at the execution of a finished list of tasks. Here the main thread of a program (the Python program or a C++ test) submits tasks (`starpu_task_insert` in `/repo/src/starpu/*.cc`), acquires and
releases data (`include/nntile/starpu/config.hh:293-333`) and waits for all tasks, and meanwhile workers execute the tasks. A blocking operation, for example `add`
(`/repo/src/tensor/add.cc:72-81`), submits the tasks of its asynchronous version and waits for all tasks; `wait_for_all` of the Python package (`wrappers/python/nntile/nntile_core.cc:42-62`)
asks for the number of unfinished tasks until it is zero.

StarPU itself is not part of `/repo`. Modelled is its documented behaviour (sequential consistency of data handles, which `/repo` does not switch off): a task starts when no task which was submitted
before, is not finished, and conflicts with it is left, and no data which the task accesses is acquired by the main thread in a conflicting mode; `starpu_data_acquire` returns when all tasks which
were submitted before and conflict with it are finished; while tasks are paused (`starpu_pause`, line 40 of the same file) none starts.

Simplifications: a task takes effect at one moment (tasks which run at the same time do not conflict); one main thread; `STARPU_REDUX` is `STARPU_RW` here (for reduction mode see
`Verif/Model/ReduxRun.lean`); transfers between memory nodes are not modelled; a handle which is unregistered has no elements and may be registered again (the use of handles after their end is in `Verif/Model/Handle.lean`).
-/
namespace NNTile
variable {α : Type _}

/-- Modes of `starpu_data_acquire`. -/
inductive AcqMode where
  | R
  | W
  | RW
  deriving DecidableEq, Repr

/-- What happens. All events but `finish` are done by the main thread. -/
inductive RtEvent (α : Type _) where
  /-- `starpu_task_insert` -/
  | submit (t : Task α)
  /-- a worker has executed a task: the one which is number `i` among the unfinished tasks, in the order of their submission -/
  | finish (i : Nat)
  /-- `starpu_data_acquire` returns, `include/nntile/starpu/config.hh:312-322` -/
  | acquire (h : Handle) (m : AcqMode)
  /-- the main thread reads acquired memory and sees `b` -/
  | peek (h : Handle) (b : Buf α)
  /-- the main thread writes `b` to acquired memory -/
  | poke (h : Handle) (b : Buf α)
  /-- `starpu_variable_data_register` without memory for a new handle, `include/nntile/starpu/config.hh:360-370`: `n` elements without contents -/
  | register (h : Handle) (n : Nat)
  /-- `starpu_data_unregister` returns, `include/nntile/starpu/config.hh:174-181`: it waits for the tasks which use the handle -/
  | unregister (h : Handle)
  /-- `starpu_data_release`, `include/nntile/starpu/config.hh:323-328` -/
  | release (h : Handle) (m : AcqMode)
  /-- `starpu_task_wait_for_all` or `wait_for_all` returns -/
  | waitAll
  /-- `starpu_pause` -/
  | pause
  /-- `starpu_resume` -/
  | resume

/-- State: contents of the data, unfinished tasks in the order of their submission, acquired data. -/
structure Rt (α : Type _) where
  store : Store α
  pending : List (Task α)
  held : List (Handle × AcqMode)
  paused : Bool

/-- The beginning of a program. -/
def Rt.init (s : Store α) : Rt α := ⟨s, [], [], false⟩

/-- New contents of one handle. -/
def Store.put (s : Store α) (h : Handle) (b : Buf α) : Store α := fun k => if k = h then b else s k

/-- A task and an acquisition exclude each other. -/
def Blocks (h : Handle) (m : AcqMode) (t : Task α) : Prop := h ∈ t.outs ∨ (m ≠ .R ∧ h ∈ t.reads)

/-- Events which can happen in a state, and what they lead to (an error is undefined behaviour of a codelet). -/
inductive Rt.Next : RtEvent α → Rt α → M (Rt α) → Prop
  | submit {r : Rt α} (t : Task α) : Next (.submit t) r (.ok { r with pending := r.pending ++ [t] })
  | finish {r : Rt α} (l l' : List (Task α)) (t : Task α) (hp : r.pending = l ++ t :: l') (hrun : r.paused = false) (hdep : ∀ u ∈ l, ¬ Conflict t u)
      (hheld : ∀ a ∈ r.held, ¬ Blocks a.1 a.2 t) :
      Next (.finish l.length) r (t.exec r.store >>= fun s => .ok { r with store := s, pending := l ++ l' })
  | acquire {r : Rt α} (h : Handle) (m : AcqMode) (hdep : ∀ u ∈ r.pending, ¬ Blocks h m u) (hheld : ∀ a ∈ r.held, a.1 = h → a.2 = .R ∧ m = .R) :
      Next (.acquire h m) r (.ok { r with store := if m = .W then r.store.put h (Buf.undef (r.store h).size) else r.store, held := (h, m) :: r.held })
  | peek {r : Rt α} (h : Handle) (b : Buf α) (hheld : ∃ m, (h, m) ∈ r.held) (hb : b = r.store h) : Next (.peek h b) r (.ok r)
  | poke {r : Rt α} (h : Handle) (b : Buf α) (hheld : ∃ m, m ≠ .R ∧ (h, m) ∈ r.held) : Next (.poke h b) r (.ok { r with store := r.store.put h b })
  | register {r : Rt α} (h : Handle) (n : Nat) (hdep : ∀ u ∈ r.pending, ¬ Blocks h .W u) (hheld : ∀ a ∈ r.held, a.1 ≠ h) :
      Next (.register h n) r (.ok { r with store := r.store.put h (Buf.undef n) })
  | unregister {r : Rt α} (h : Handle) (hdep : ∀ u ∈ r.pending, ¬ Blocks h .W u) (hheld : ∀ a ∈ r.held, a.1 ≠ h) :
      Next (.unregister h) r (.ok { r with store := r.store.put h (Buf.undef 0) })
  | release {r : Rt α} (h : Handle) (m : AcqMode) (hheld : (h, m) ∈ r.held) : Next (.release h m) r (.ok { r with held := r.held.erase (h, m) })
  | waitAll {r : Rt α} (hp : r.pending = []) : Next .waitAll r (.ok r)
  | pause {r : Rt α} : Next .pause r (.ok { r with paused := true })
  | resume {r : Rt α} : Next .resume r (.ok { r with paused := false })

/-- Histories. -/
inductive Rt.Run : Rt α → List (RtEvent α) → M (Rt α) → Prop
  | nil (r : Rt α) : Run r [] (.ok r)
  | cons {r r' : Rt α} {e : RtEvent α} {es : List (RtEvent α)} {o : M (Rt α)} (h : Next e r (.ok r')) (hs : Run r' es o) : Run r (e :: es) o
  | fail {r : Rt α} {e : RtEvent α} {x : Err} (h : Next e r (.error x)) : Run r [e] (.error x)

/-- What the main thread does in an asynchronous operation which submits the tasks `ts`. -/
def asyncOp (ts : List (Task α)) : List (RtEvent α) := ts.map .submit

/-- A blocking operation of `/repo/src/tensor/*.cc` or `/repo/src/tile/*.cc`: the asynchronous one, then `starpu_task_wait_for_all` (for example `/repo/src/tensor/add.cc:72-81`; in all of these files the
arguments are the same, and only `scatter` waits for MPI before it waits for the tasks). -/
def blockingOp (ts : List (Task α)) : List (RtEvent α) := asyncOp ts ++ [.waitAll]

end NNTile
