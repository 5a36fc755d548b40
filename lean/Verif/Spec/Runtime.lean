import Verif.Model.Runtime
/-! A program without concurrency: tasks are executed when they are submitted. -/
namespace NNTile
variable {α : Type _}

/-- The store after the actions of the main thread, if every task is executed at the moment of its submission. -/
def seqStore : List (RtEvent α) → Store α → M (Store α)
  | [], s => .ok s
  | .submit t :: es, s => do
    let s ← t.exec s
    seqStore es s
  | .acquire h .W :: es, s => seqStore es (s.put h (Buf.undef (s h).size))
  | .poke h b :: es, s => seqStore es (s.put h b)
  | .register h n :: es, s => seqStore es (s.put h (Buf.undef n))
  | .unregister h :: es, s => seqStore es (s.put h (Buf.undef 0))
  | _ :: es, s => seqStore es s

/-- Everything which the main thread reads is what the actions before it give, if every task is executed at its submission. -/
def ReadsRight : List (RtEvent α) → Store α → Prop
  | [], _ => True
  | .submit t :: es, s => ∀ s', t.exec s = .ok s' → ReadsRight es s'
  | .acquire h .W :: es, s => ReadsRight es (s.put h (Buf.undef (s h).size))
  | .poke h b :: es, s => ReadsRight es (s.put h b)
  | .register h n :: es, s => ReadsRight es (s.put h (Buf.undef n))
  | .unregister h :: es, s => ReadsRight es (s.put h (Buf.undef 0))
  | .peek h b :: es, s => b = s h ∧ ReadsRight es s
  | _ :: es, s => ReadsRight es s

/-- While the main thread holds data (`held`), it submits no task which waits for the release. -/
def Orderly : List (Handle × AcqMode) → List (RtEvent α) → Prop
  | _, [] => True
  | held, .submit t :: es => (∀ a ∈ held, ¬ Blocks a.1 a.2 t) ∧ Orderly held es
  | held, .acquire h m :: es => Orderly ((h, m) :: held) es
  | held, .release h m :: es => Orderly (held.erase (h, m)) es
  | held, _ :: es => Orderly held es

/-- The event is a step of a worker. -/
def RtEvent.isWorker : RtEvent α → Bool
  | .finish _ => true
  | _ => false

/-- What the main thread does in a history. -/
def mainOf (es : List (RtEvent α)) : List (RtEvent α) := es.filter fun e => !e.isWorker

/-- After these events tasks are paused: the last one of `pause` and `resume` is `pause`. -/
def pausedAfter (es : List (RtEvent α)) : Bool := es.foldl (fun p e => match e with
  | .pause => true
  | .resume => false
  | _ => p) false

end NNTile
