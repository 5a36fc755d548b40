import Verif.Model.Handle
/-!
# What a user expects of handles

The counters of the shared pointers are not used here: owners are counted among the objects of the program.
-/
namespace NNTile.Handle

/-- The data a handle refers to. -/
def Var.data : Var → Option Nat
  | .dead => none
  | .live d => d

/-- The data a local object refers to. -/
def localData : Option LocalData → Option Nat
  | none => none
  | some l => l.data

/-- How many objects of the program refer to the data `d`. -/
def World.owners (w : World) (d : Nat) : Nat := w.handles.countP (fun v => v.data == some d) + w.locals.countP (fun l => localData l == some d)

/-- The data a call of StarPU is about. -/
def Event.data : Event → Nat
  | .register d _ => d
  | .unregister d _ => d
  | .acquire d _ => d
  | .release d => d

/-- The calls of StarPU about the data `d`, in their order. -/
def World.eventsOf (w : World) (d : Nat) : List Event := w.log.filter (fun e => e.data == d)

/-- A call which is neither a registration nor the end of one. -/
def Event.isUse : Event → Bool
  | .acquire _ _ => true
  | .release _ => true
  | _ => false

/-- Data which is only read is dropped, data which is written is brought back to its home node, temporary data is unregistered after the tasks which use it. -/
inductive Brings : Mode → Kind → Prop where
  | r : Brings .r .noCoherency
  | rw : Brings .rw .coherent
  | w : Brings .w .coherent
  | scratch : Brings .scratch .submit

/-- The data `d` is not registered yet. -/
def World.Unborn (w : World) (d : Nat) : Prop := w.eventsOf d = [] ∧ w.owners d = 0

/-- The data `d` is registered, not unregistered, and some object refers to it. -/
def World.Alive (w : World) (d : Nat) : Prop := ∃ m us, w.eventsOf d = .register d m :: us ∧ (∀ e ∈ us, e.isUse) ∧ m ≠ .other ∧ 0 < w.owners d

/-- The data `d` was registered, and unregistered once, as its mode demands; nothing was done to it afterwards, and no object refers to it. -/
def World.Gone (w : World) (d : Nat) : Prop :=
  ∃ m us k, w.eventsOf d = .register d m :: us ++ [.unregister d k] ∧ (∀ e ∈ us, e.isUse) ∧ Brings m k ∧ w.owners d = 0

/-- The data `d` was registered with an invalid mode; it is never unregistered, though no object refers to it. -/
def World.Lost (w : World) (d : Nat) : Prop := w.eventsOf d = [.register d .other] ∧ w.owners d = 0

/-- How many local objects hold an acquisition of `d`. -/
def World.holders (w : World) (d : Nat) : Nat := w.locals.countP (fun l => l.elim false fun l => l.acquired && l.data == some d)

/-- Acquisitions of `d` so far. -/
def World.acquisitions (w : World) (d : Nat) : Nat := w.log.countP (fun e => match e with | .acquire d' _ => d' == d | _ => false)

/-- Releases of `d` so far. -/
def World.releases (w : World) (d : Nat) : Nat := w.log.countP (fun e => e == .release d)

/-- Disciplined use in a state: only objects which are alive; data is acquired only through a handle which is not null, and if no acquisition which excludes it is outstanding; a local object is acquired only
while it is released, and released only while it is acquired; a local object is copied or assigned only while it is released (and assigned to only while it is released). -/
def Proper (w : World) : Op → Prop
  | .newHandle _ _ => True
  | .nullHandle => True
  | .copyHandle i => (w.dataOf i).isSome
  | .assignHandle i j => (w.dataOf i).isSome ∧ (w.dataOf j).isSome
  | .unregister i => (w.dataOf i).isSome
  | .destroyHandle i => (w.dataOf i).isSome
  | .acquireHandle i mode _ => ∃ d, w.dataOf i = some (some d) ∧ ¬ w.blocks d mode
  | .localAcquire j mode _ => ∃ l d, w.localOf j = some l ∧ l.acquired = false ∧ l.data = some d ∧ ¬ w.blocks d mode
  | .localRelease j => ∃ l, w.localOf j = some l ∧ l.acquired = true
  | .copyLocal j => ∃ l, w.localOf j = some l ∧ l.acquired = false
  | .assignLocal i j => ∃ l l', w.localOf i = some l ∧ w.localOf j = some l' ∧ l.acquired = false ∧ l'.acquired = false
  | .destroyLocal j => (w.localOf j).isSome

/-- A history whose operations are disciplined, each in the state in which it begins. -/
def ProperRun : World → List Op → Prop
  | _, [] => True
  | w, op :: ops => Proper w op ∧ ∀ w', (step w op = .ok w' ∨ step w op = .raised w') → ProperRun w' ops

end NNTile.Handle
