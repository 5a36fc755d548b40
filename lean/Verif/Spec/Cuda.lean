import Verif.Model.Cuda
import Mathlib.Logic.Relation
/-! What it means that a CUDA kernel works. -/
namespace NNTile
variable {α : Type} [FP α]

/-- States that some interleaving of the threads reaches. -/
def Launch.Reach (g : Launch α) (bufs : Nat → Buf α) (s : GState α) : Prop := Relation.ReflTransGen GStep (g.init bufs) s

/-- In all interleavings of the threads there is no undefined behaviour, no data race and no deadlock, and at the end the buffers satisfy `Post`. -/
structure Launch.Safe (g : Launch α) (bufs : Nat → Buf α) (Post : (Nat → Buf α) → Prop) : Prop where
  defined : ∀ s, g.Reach bufs s → ¬ s.Fails
  raceFree : ∀ s, g.Reach bufs s → ¬ s.Race
  progress : ∀ s, g.Reach bufs s → s.Final ∨ ∃ s', GStep s s'
  result : ∀ s, g.Reach bufs s → s.Final → Post fun b => s.mem (.glob b)

/-- Moreover all executions are finite. -/
structure Launch.Works (g : Launch α) (bufs : Nat → Buf α) (Post : (Nat → Buf α) → Prop) : Prop extends g.Safe bufs Post where
  finite : ¬ ∃ f : Nat → GState α, f 0 = g.init bufs ∧ ∀ n, GStep (f n) (f (n + 1))

/-- The buffers of a task: first the one which is written. -/
def taskBufs (dst : Buf α) (srcs : List (Buf α)) (b : Nat) : Buf α := (dst :: srcs).getD b ⟨0, fun _ => none⟩

/-- The kernel computes `dst'` from `dst` and `srcs` and leaves `srcs` alone, in all interleavings. -/
def Launch.Gives (g : Launch α) (srcs : List (Buf α)) (dst dst' : Buf α) : Prop := g.Works (taskBufs dst srcs) fun bs => bs = taskBufs dst' srcs

end NNTile
