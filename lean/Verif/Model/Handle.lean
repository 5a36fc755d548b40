import Mathlib.Logic.Function.Basic
import Mathlib.Data.List.Basic
/-!
# Data handles: registration, shared ownership, local acquisition

`Handle`, `VariableHandle` and `HandleLocalData`, `include/nntile/starpu/config.hh:167-395`. The world keeps the objects of the program (in the order of their construction), the counters of the
shared pointers, and what StarPU was told so far. StarPU data is denoted by the number of its registration. One thread: two acquisitions of one data which exclude each other wait for each other
forever. Which node holds the memory, what is transferred when, and tasks are not modelled here.
-/
namespace NNTile.Handle

/-- `starpu_data_access_mode`; `other` is every value which `_get_shared_ptr` does not list. -/
inductive Mode where
  | r | rw | w | scratch | other
  deriving DecidableEq, Repr

/-- The three deleters, `include/nntile/starpu/config.hh:174-198`: `starpu_data_unregister`, `starpu_data_unregister_no_coherency`, `starpu_data_unregister_submit`. -/
inductive Kind where
  | coherent | noCoherency | submit
  deriving DecidableEq, Repr

/-- Calls of StarPU. -/
inductive Event where
  /-- `starpu_variable_data_register`; the mode is the one given to the constructor of the handle -/
  | register (d : Nat) (mode : Mode)
  | unregister (d : Nat) (k : Kind)
  /-- a successful `starpu_data_acquire` -/
  | acquire (d : Nat) (mode : Mode)
  | release (d : Nat)
  deriving DecidableEq, Repr

/-- An object of class `Handle`: destroyed, or alive with the data of its shared pointer (`none` is a null pointer), `include/nntile/starpu/config.hh:223`. -/
inductive Var where
  | dead
  | live (data : Option Nat)
  deriving DecidableEq, Repr

/-- Members of `HandleLocalData`, `include/nntile/starpu/config.hh:295-297`. The pointer is denoted by the data into whose memory it points. -/
structure LocalData where
  data : Option Nat
  ptr : Option Nat
  acquired : Bool
  deriving DecidableEq, Repr

/-- State of a program. `use d` and `del d` are the counter and the deleter of the shared pointers to `d`; `held` lists the acquisitions which are not released. -/
structure World where
  next : Nat
  use : Nat → Nat
  del : Nat → Kind
  handles : List Var
  locals : List (Option LocalData)
  held : List (Nat × Mode)
  log : List Event

/-- The beginning of the program. -/
def World.init : World := ⟨0, fun _ => 0, fun _ => .coherent, [], [], [], []⟩

/-- How an operation ends: normally, by an exception, in undefined behaviour (a destroyed object, a null handle given to StarPU, a release of data which is not acquired), or never (waiting for a
release which this thread does not reach). -/
inductive Res where
  | ok (w : World)
  | raised (w : World)
  | ub
  | stuck

/-- Sequencing; an exception ends the sequence. -/
def Res.bind : Res → (World → Res) → Res
  | .ok w, f => f w
  | .raised w, _ => .raised w
  | .ub, _ => .ub
  | .stuck, _ => .stuck

/-- A copy of a shared pointer: its counter is incremented. -/
def World.retain (w : World) : Option Nat → World
  | none => w
  | some d => { w with use := Function.update w.use d (w.use d + 1) }

/-- The end of a shared pointer (`reset`, assignment, destructor): its counter is decremented, and the last one calls the deleter, `include/nntile/starpu/config.hh:174-198`. To unregister data which is
acquired waits for the release (`unregister_submit` returns, but the data is never unregistered; this is not distinguished). -/
def World.drop (w : World) : Option Nat → Res
  | none => .ok w
  | some d =>
    if w.use d = 0 then .ub
    else if w.use d = 1 then
      if d ∈ w.held.map Prod.fst then .stuck
      else .ok { w with use := Function.update w.use d 0, log := w.log ++ [.unregister d (w.del d)] }
    else .ok { w with use := Function.update w.use d (w.use d - 1) }

/-- `_get_shared_ptr`, `include/nntile/starpu/config.hh:199-220`: the deleter for a mode, or an exception. -/
def deleter : Mode → Option Kind
  | .r => some .noCoherency
  | .rw => some .coherent
  | .w => some .coherent
  | .scratch => some .submit
  | .other => none

/-- `VariableHandle(size, mode)` and `VariableHandle(ptr, size, mode)`, `include/nntile/starpu/config.hh:358-395`: the data is registered before the mode is looked at. -/
def World.newHandle (w : World) (size : Nat) (mode : Mode) : Res :=
  if size = 0 then .raised w
  else
    let d := w.next
    let w := { w with next := d + 1, log := w.log ++ [.register d mode] }
    match deleter mode with
    | none => .raised w
    | some k => .ok { w with use := Function.update w.use d 1, del := Function.update w.del d k, handles := w.handles ++ [.live (some d)] }

/-- `Handle()`, `include/nntile/starpu/config.hh:225-228`. -/
def World.nullHandle (w : World) : Res := .ok { w with handles := w.handles ++ [.live none] }

/-- The data of the shared pointer of the `i`-th handle, if this is alive. -/
def World.dataOf (w : World) (i : Nat) : Option (Option Nat) :=
  match w.handles[i]? with
  | some (.live d) => some d
  | _ => none

/-- The implicit copy constructor of `Handle` (also of `VariableHandle`, and of `Tile` from the handle of a tile, `include/nntile/tile/tile.hh:56-60`). -/
def World.copyHandle (w : World) (i : Nat) : Res :=
  match w.dataOf i with
  | none => .ub
  | some d => let w := w.retain d; .ok { w with handles := w.handles ++ [.live d] }

/-- The implicit assignment `handle_i = handle_j`: the new pointer is retained before the old one ends. -/
def World.assignHandle (w : World) (i j : Nat) : Res :=
  match w.dataOf i, w.dataOf j with
  | some old, some new => let w := w.retain new; World.drop { w with handles := w.handles.set i (.live new) } old
  | _, _ => .ub

/-- `Handle::unregister`, `include/nntile/starpu/config.hh:252-255`. -/
def World.unregister (w : World) (i : Nat) : Res :=
  match w.dataOf i with
  | none => .ub
  | some d => World.drop { w with handles := w.handles.set i (.live none) } d

/-- `~Handle`, `include/nntile/starpu/config.hh:241-243`. -/
def World.destroyHandle (w : World) (i : Nat) : Res :=
  match w.dataOf i with
  | none => .ub
  | some d => World.drop { w with handles := w.handles.set i .dead } d

/-- Two acquisitions of one data exclude each other unless both read. -/
def World.blocks (w : World) (d : Nat) (mode : Mode) : Prop := ∃ p ∈ w.held, p.1 = d ∧ (p.2 ≠ .r ∨ mode ≠ .r)

instance (w : World) (d : Nat) (mode : Mode) : Decidable (w.blocks d mode) := by unfold World.blocks; infer_instance

/-- `starpu_data_acquire(handle, mode)`; `fails`: it returns a status which is not zero. -/
def World.starpuAcquire (w : World) (d : Option Nat) (mode : Mode) (fails : Bool) : Res :=
  match d with
  | none => .ub
  | some d =>
    if fails then .raised w
    else if w.blocks d mode then .stuck
    else .ok { w with held := (d, mode) :: w.held, log := w.log ++ [.acquire d mode] }

/-- `starpu_data_release(handle)`. -/
def World.starpuRelease (w : World) (d : Option Nat) : Res :=
  match d with
  | none => .ub
  | some d =>
    if d ∈ w.held.map Prod.fst then .ok { w with held := w.held.eraseP (fun p => p.1 == d), log := w.log ++ [.release d] }
    else .ub

/-- The members of the `j`-th local object, if this is alive. -/
def World.localOf (w : World) (j : Nat) : Option LocalData := (w.locals[j]?).bind id

/-- `Handle::acquire` and `HandleLocalData(handle, mode)`, `include/nntile/starpu/config.hh:299-304,312-322,335-339`: the handle is copied; if the acquisition fails, the copy is destroyed again. -/
def World.acquireHandle (w : World) (i : Nat) (mode : Mode) (fails : Bool) : Res :=
  match w.dataOf i with
  | none => .ub
  | some d =>
    match (w.retain d).starpuAcquire d mode fails with
    | .ok w => .ok { w with locals := w.locals ++ [some ⟨d, d, true⟩] }
    | .raised w => (w.drop d).bind .raised
    | r => r

/-- `HandleLocalData::acquire`, `include/nntile/starpu/config.hh:312-322`. -/
def World.localAcquire (w : World) (j : Nat) (mode : Mode) (fails : Bool) : Res :=
  match w.localOf j with
  | none => .ub
  | some l => (w.starpuAcquire l.data mode fails).bind fun w => .ok { w with locals := w.locals.set j (some ⟨l.data, l.data, true⟩) }

/-- `HandleLocalData::release`, `include/nntile/starpu/config.hh:323-328`. -/
def World.localRelease (w : World) (j : Nat) : Res :=
  match w.localOf j with
  | none => .ub
  | some l => (w.starpuRelease l.data).bind fun w => .ok { w with locals := w.locals.set j (some ⟨l.data, none, false⟩) }

/-- The implicit copy constructor of `HandleLocalData`. -/
def World.copyLocal (w : World) (j : Nat) : Res :=
  match w.localOf j with
  | none => .ub
  | some l => let w := w.retain l.data; .ok { w with locals := w.locals ++ [some l] }

/-- The implicit assignment `local_i = local_j` of `HandleLocalData`. -/
def World.assignLocal (w : World) (i j : Nat) : Res :=
  match w.localOf i, w.localOf j with
  | some old, some new => let w := w.retain new.data; World.drop { w with locals := w.locals.set i (some new) } old.data
  | _, _ => .ub

/-- `~HandleLocalData`, `include/nntile/starpu/config.hh:305-311`, then the destructor of its handle. -/
def World.destroyLocal (w : World) (j : Nat) : Res :=
  match w.localOf j with
  | none => .ub
  | some l => (if l.acquired then w.localRelease j else .ok w).bind fun w => World.drop { w with locals := w.locals.set j none } l.data

/-- What a program can do with handles. -/
inductive Op where
  | newHandle (size : Nat) (mode : Mode)
  | nullHandle
  | copyHandle (i : Nat)
  | assignHandle (i j : Nat)
  | unregister (i : Nat)
  | destroyHandle (i : Nat)
  | acquireHandle (i : Nat) (mode : Mode) (fails : Bool)
  | localAcquire (j : Nat) (mode : Mode) (fails : Bool)
  | localRelease (j : Nat)
  | copyLocal (j : Nat)
  | assignLocal (i j : Nat)
  | destroyLocal (j : Nat)
  deriving Repr

/-- One operation, `include/nntile/starpu/config.hh:167-395`. -/
def step (w : World) : Op → Res
  | .newHandle size mode => w.newHandle size mode
  | .nullHandle => w.nullHandle
  | .copyHandle i => w.copyHandle i
  | .assignHandle i j => w.assignHandle i j
  | .unregister i => w.unregister i
  | .destroyHandle i => w.destroyHandle i
  | .acquireHandle i mode fails => w.acquireHandle i mode fails
  | .localAcquire j mode fails => w.localAcquire j mode fails
  | .localRelease j => w.localRelease j
  | .copyLocal j => w.copyLocal j
  | .assignLocal i j => w.assignLocal i j
  | .destroyLocal j => w.destroyLocal j

/-- A history; the program catches exceptions and goes on. -/
def run (w : World) : List Op → Res
  | [] => .ok w
  | op :: ops =>
    match step w op with
    | .ok w => run w ops
    | .raised w => run w ops
    | .ub => .ub
    | .stuck => .stuck

/-- `Tensor::unregister`, `include/nntile/tensor/tensor.hh:128-134`, for a tensor whose tiles have the given handles. -/
def tensorUnregister (tiles : List Nat) : List Op := tiles.map .unregister

end NNTile.Handle
