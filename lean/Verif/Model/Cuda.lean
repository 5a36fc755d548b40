import Verif.Model.FP
import Verif.Model.Core
import Mathlib.Logic.Function.Basic
/-!
# Execution of CUDA kernels

The kernels of `src/kernel/*/cuda.cu` are programs executed by all threads of a grid. A thread accesses global memory (the buffers of the task) and the shared memory of its block, and
waits at `__syncthreads()`. Any interleaving of the accesses of the threads is possible. The CUDA memory model is reduced to such interleavings together with the requirement that no
data race is reachable.

* `dim3` consists of three `unsigned int`; conversions of `Index` to `int` and `unsigned int` wrap around (`int32`, `uint32`).
* A launch with an invalid configuration (limits of compute capability 3.0 and higher: CUDA C++ Programming Guide, table "Technical Specifications per Compute Capability") executes
  no threads. The code ignores the error.
* `__syncthreads()` waits for all threads of the block which have not exited (CUDA C++ Programming Guide, "Independent Thread Scheduling": "will not succeed until reached by all
  non-exited threads in the block").
* The arithmetic is that of `FP`, the same as on CPU: the rounding of library functions and contraction to fused multiply-add on the device are not modelled.
-/
namespace NNTile

/-- `dim3`, and the type of `blockIdx`, `threadIdx`. -/
structure Dim3 where
  x : Nat
  y : Nat
  z : Nat
  deriving DecidableEq

/-- A thread: `blockIdx` and `threadIdx`. -/
structure Tid where
  blk : Dim3
  thr : Dim3
  deriving DecidableEq

/-- Global memory (buffer number `b` of the task) and the shared memory of a block. -/
inductive Space where
  | glob (b : Nat)
  | shared (blk : Dim3)
  deriving DecidableEq

/-- An address. -/
abbrev Loc := Space × Nat

/-- The contents of memory. -/
abbrev Mem (α : Type) := Space → Buf α

variable {α : Type}

def Mem.rd (m : Mem α) (l : Loc) : M α := (m l.1).rd l.2
def Mem.wr (m : Mem α) (l : Loc) (v : α) : M (Mem α) := do
  let b ← (m l.1).wr l.2 v
  .ok (Function.update m l.1 b)

/-- What a thread still has to do. `raise l v` is the loop `while(*l < v) { *l = v; }` on a volatile location: about to evaluate the condition; `raiseWr`: about to write. `ub`: undefined
behaviour (an access with a negative index). -/
inductive Prog (α : Type) where
  | done
  | rd (l : Loc) (k : α → Prog α)
  | wr (l : Loc) (v : α) (k : Prog α)
  | atomicAdd (l : Loc) (v : α) (k : Prog α)
  | sync (k : Prog α)
  | raise (l : Loc) (v : α) (k : Prog α)
  | raiseWr (l : Loc) (v : α) (k : Prog α)
  | ub

/-- The next access of a thread; `none` if it has finished or waits at a barrier. -/
def Prog.step [FP α] (m : Mem α) : Prog α → Option (M (Mem α × Prog α))
  | .done => none
  | .sync _ => none
  | .rd l k => some (do
    let v ← m.rd l
    .ok (m, k v))
  | .wr l v k => some (do
    let m ← m.wr l v
    .ok (m, k))
  | .atomicAdd l v k => some (do
    let x ← m.rd l
    let m ← m.wr l (x + v)
    .ok (m, k))
  | .raise l v k => some (do
    let x ← m.rd l
    .ok (m, if FP.ltb x v then .raiseWr l v k else k))
  | .raiseWr l v k => some (do
    let m ← m.wr l v
    .ok (m, .raise l v k))
  | .ub => some (.error (.ub "negative index"))

/-- Kinds of accesses. -/
inductive Access where
  | read | write | atomic | volatile
  deriving DecidableEq

def Prog.access : Prog α → Option (Loc × Access)
  | .rd l _ => some (l, .read)
  | .wr l _ _ => some (l, .write)
  | .atomicAdd l _ _ => some (l, .atomic)
  | .raise l _ _ => some (l, .volatile)
  | .raiseWr l _ _ => some (l, .volatile)
  | _ => none

/-- After the barrier. -/
def Prog.resume : Prog α → Prog α
  | .sync k => k
  | p => p

def Prog.waits : Prog α → Prop
  | .sync _ => True
  | _ => False

/-- State of a grid. -/
structure GState (α : Type) where
  mem : Mem α
  prog : Tid → Prog α

/-- One step of a grid: an access of one thread, or all threads of a block that have not finished leave the barrier. -/
inductive GStep [FP α] : GState α → GState α → Prop
  | thread {s : GState α} (t : Tid) {m : Mem α} {q : Prog α} (h : (s.prog t).step s.mem = some (.ok (m, q))) : GStep s ⟨m, Function.update s.prog t q⟩
  | barrier {s : GState α} (b : Dim3) (h : ∀ t : Tid, t.blk = b → s.prog t = .done ∨ (s.prog t).waits) (h' : ∃ t : Tid, t.blk = b ∧ (s.prog t).waits) :
      GStep s ⟨s.mem, fun t => if t.blk = b then (s.prog t).resume else s.prog t⟩

/-- Undefined behaviour: the next access of some thread is invalid. -/
def GState.Fails [FP α] (s : GState α) : Prop := ∃ t e, (s.prog t).step s.mem = some (.error e)

/-- Data race: two threads are about to access the same address, not both reading, not both by atomic or by volatile operations. -/
def GState.Race (s : GState α) : Prop :=
  ∃ (t u : Tid) (l : Loc) (a b : Access), t ≠ u ∧ (s.prog t).access = some (l, a) ∧ (s.prog u).access = some (l, b) ∧ ¬ (a = b ∧ a ≠ .write)

def GState.Final (s : GState α) : Prop := ∀ t, s.prog t = .done

/-- A launch `<<<grid, threads>>>`, with the number of elements of the shared memory of each block. -/
structure Launch (α : Type) where
  grid : Dim3
  threads : Dim3
  shared : Nat
  body : Tid → Prog α

/-- Limits of the configuration. -/
def Launch.Valid (g : Launch α) : Prop :=
  1 ≤ g.grid.x ∧ g.grid.x < 2^31 ∧ 1 ≤ g.grid.y ∧ g.grid.y < 2^16 ∧ 1 ≤ g.grid.z ∧ g.grid.z < 2^16 ∧
  1 ≤ g.threads.x ∧ g.threads.x ≤ 1024 ∧ 1 ≤ g.threads.y ∧ g.threads.y ≤ 1024 ∧ 1 ≤ g.threads.z ∧ g.threads.z ≤ 64 ∧ g.threads.x * g.threads.y * g.threads.z ≤ 1024

instance (g : Launch α) : Decidable g.Valid := by unfold Launch.Valid; infer_instance

/-- `t` belongs to the grid. -/
def Launch.Has (g : Launch α) (t : Tid) : Prop :=
  t.blk.x < g.grid.x ∧ t.blk.y < g.grid.y ∧ t.blk.z < g.grid.z ∧ t.thr.x < g.threads.x ∧ t.thr.y < g.threads.y ∧ t.thr.z < g.threads.z

instance (g : Launch α) (t : Tid) : Decidable (g.Has t) := by unfold Launch.Has; infer_instance

/-- Memory at the start: the buffers of the task, undefined shared memory. -/
def Launch.mem (g : Launch α) (bufs : Nat → Buf α) : Mem α
  | .glob b => bufs b
  | .shared _ => .undef g.shared

/-- Threads at the start. -/
def Launch.start (g : Launch α) (t : Tid) : Prog α := if g.Valid ∧ g.Has t then g.body t else .done

/-- A kernel is written in continuation passing style, which gives `do` notation. -/
abbrev PM (α : Type) (β : Type) := (β → Prog α) → Prog α

instance : Monad (PM α) where
  pure b := fun k => k b
  bind f g := fun k => f fun b => g b k

/-- `p[i]` as an rvalue. -/
def ld (b i : Nat) : PM α α := fun k => .rd (.glob b, i) k
/-- `p[i] = v`. -/
def st (b i : Nat) (v : α) : PM α Unit := fun k => .wr (.glob b, i) v (k ())
/-- `for(Index i = 0; i < n; ++i) s = f(i, s);` -/
def forP {σ : Type} : Nat → (Nat → σ → PM α σ) → σ → PM α σ
  | 0, _, s => fun k => k s
  | n+1, f, s => fun k => forP n f s fun s => f n s k
/-- The whole program of a thread. -/
def PM.prog (f : PM α Unit) : Prog α := f fun _ => .done

def Launch.init (g : Launch α) (bufs : Nat → Buf α) : GState α := ⟨g.mem bufs, g.start⟩

/-- Conversion to `int` (32 bits). -/
def int32 (n : Int) : Int := (n + 2^31) % 2^32 - 2^31
/-- Conversion to `unsigned int` (32 bits). -/
def uint32 (n : Int) : Nat := (n % 2^32).toNat

end NNTile
