import Verif.Lib.Runtime
import Verif.Props.C26
/-!
# C83: programs which submit tasks while other tasks run
-/
namespace NNTile
variable {α : Type _}

/-- **Waiting.** The main thread does `main` and waits for all tasks, and meanwhile the workers execute tasks in any way. Then nothing goes wrong, no task is left, and the data is what it is if every task is
executed at its submission. -/
theorem C83_wait {main : List (RtEvent α)} {s s' : Store α} (hs : seqStore main s = .ok s') (ho : Orderly [] main) {es : List (RtEvent α)} (he : mainOf es = main) {o : M (Rt α)}
    (h : Rt.Run (.init s) (es ++ [.waitAll]) o) : ∃ r, o = .ok r ∧ r.store = s' ∧ r.pending = [] := by
  subst he
  rw [seqStore_main] at hs
  rw [orderly_main] at ho
  obtain ⟨r, r', rfl, -, hI, hn⟩ := Rt.Inv.last (by simp) hs ho ⟨s', rfl⟩ h
  cases hn with
  | waitAll hp =>
    have h1 := hI.seq
    rw [hp] at h1
    cases h1
    exact ⟨_, rfl, rfl, hp⟩

/-- **Reading acquired data.** What the main thread sees in acquired memory is what the operations before it give, although other tasks may not be finished. -/
theorem C83_read {main : List (RtEvent α)} {s s' : Store α} (hs : seqStore main s = .ok s') (ho : Orderly [] main) {es : List (RtEvent α)} (he : mainOf es = main) {k : Handle} {b : Buf α}
    {o : M (Rt α)} (h : Rt.Run (.init s) (es ++ [.peek k b]) o) : b = s' k := by
  subst he
  rw [seqStore_main] at hs
  rw [orderly_main] at ho
  obtain ⟨r, r', rfl, -, hI, hn⟩ := Rt.Inv.last (by simp) hs ho ⟨s', rfl⟩ h
  cases hn with
  | peek _ _ hheld hb =>
    rw [hb]
    obtain ⟨m, hm⟩ := hheld
    exact (runAll_other hI.seq fun t ht hk => hI.free _ hm t ht (.inl hk)).symm

/-- **Everything which the program reads** is what the operations before it give. -/
theorem C83_reads {main : List (RtEvent α)} {s s' : Store α} (hs : seqStore main s = .ok s') (ho : Orderly [] main) {es : List (RtEvent α)} (he : mainOf es = main) {o : M (Rt α)}
    (h : Rt.Run (.init s) es o) : ReadsRight main s := by
  subst he
  rw [seqStore_main] at hs
  rw [orderly_main] at ho
  exact (readsRight_main es s).2 ((Rt.Inv.init s).reads h hs ho)

/-- **At any moment** nothing has gone wrong, and data which no unfinished task writes is what the operations before it give. -/
theorem C83_any_moment {main : List (RtEvent α)} {s s' : Store α} (hs : seqStore main s = .ok s') (ho : Orderly [] main) {es : List (RtEvent α)} (he : mainOf es = main) {o : M (Rt α)}
    (h : Rt.Run (.init s) es o) : ∃ r, o = .ok r ∧ ∀ k, (∀ t ∈ r.pending, k ∉ t.outs) → r.store k = s' k := by
  subst he
  rw [seqStore_main] at hs
  rw [orderly_main] at ho
  obtain ⟨r, rfl, hI⟩ := (Rt.Inv.init s).run h hs ho
  exact ⟨r, rfl, fun k hk => (runAll_other hI.seq hk).symm⟩

/-- **The wait ends.** If tasks are not paused: the unfinished tasks can be executed and then the wait returns; while a task is unfinished a worker can always execute one; and workers cannot go on for
longer than there are tasks. -/
theorem C83_progress {main : List (RtEvent α)} {s s' : Store α} (hs : seqStore main s = .ok s') (ho : Orderly [] main) {es : List (RtEvent α)} (he : mainOf es = main) {r : Rt α}
    (h : Rt.Run (.init s) es (.ok r)) (hp : pausedAfter main = false) :
    (∃ r', Rt.Run r (List.replicate r.pending.length (.finish 0) ++ [.waitAll]) (.ok r')) ∧
    (r.pending ≠ [] → ∃ r', Rt.Next (.finish 0) r (.ok r')) ∧
    ∀ fs r', (∀ e ∈ fs, e.isWorker = true) → Rt.Run r fs (.ok r') → r'.pending.length + fs.length = r.pending.length := by
  subst he
  rw [seqStore_main] at hs
  rw [orderly_main] at ho
  rw [pausedAfter_main, ← h.paused] at hp
  obtain ⟨r1, e, hI⟩ := (Rt.Inv.init s).run h hs ho
  cases e
  refine ⟨⟨_, (hI.drain hp).append_ok (.cons (.waitAll rfl) (.nil _))⟩, fun hne => ?_, fun fs r' hw hr => hr.count hw⟩
  cases hq : r.pending with
  | nil => exact absurd hq hne
  | cons t ts =>
    have h1 := hI.seq
    rw [hq, runAll] at h1
    obtain ⟨s1, h2, -⟩ := M.bind_eq_ok.1 h1
    have hn := Rt.Next.finish (r := r) [] ts t hq hp (by simp) fun a ha => hI.free a ha t (by rw [hq]; simp)
    rw [h2, M.bind_ok] at hn
    exact ⟨_, hn⟩

/-- **Blocking operations.** A program of blocking operations, whatever the workers do: at its end the data is the result of all their tasks, one after the other. The same if some of the operations are
asynchronous, if the last one is blocking. -/
theorem C83_blocking {ops : List (Bool × List (Task α))} {last : List (Task α)} {s s' : Store α} (hs : runAll (ops.flatMap Prod.snd ++ last) s = .ok s') {es : List (RtEvent α)}
    (he : mainOf es = ops.flatMap (fun p => if p.1 then blockingOp p.2 else asyncOp p.2) ++ asyncOp last) {o : M (Rt α)}
    (h : Rt.Run (.init s) (es ++ [.waitAll]) o) : ∃ r, o = .ok r ∧ r.store = s' ∧ r.pending = [] := by
  have all : ∀ (ops : List (Bool × List (Task α))) (s : Store α),
      seqStore (ops.flatMap fun p => if p.1 then blockingOp p.2 else asyncOp p.2) s = runAll (ops.flatMap Prod.snd) s := by
    intro ops
    induction ops with
    | nil => intro s; rfl
    | cons p ops ih =>
      intro s
      rw [List.flatMap_cons, List.flatMap_cons, seqStore_append, runAll_append]
      have e : seqStore (if p.1 then blockingOp p.2 else asyncOp p.2) s = runAll p.2 s := by
        split
        · rw [blockingOp, seqStore_append, seqStore_async]
          cases runAll p.2 s <;> rfl
        · exact seqStore_async _ _
      rw [e]
      congr 1
      funext s
      exact ih s
  have ord : ∀ (ops : List (Bool × List (Task α))) (es : List (RtEvent α)), Orderly [] es → Orderly [] (ops.flatMap (fun p => if p.1 then blockingOp p.2 else asyncOp p.2) ++ es) := by
    intro ops es hes
    induction ops with
    | nil => exact hes
    | cons p ops ih =>
      rw [List.flatMap_cons, List.append_assoc]
      split
      · rw [blockingOp, List.append_assoc]
        exact orderly_async _ ih
      · exact orderly_async _ ih
  refine C83_wait (s := s) ?_ ?_ he h
  · rw [seqStore_append, all, ← hs, runAll_append]
    congr 1
    funext s
    exact seqStore_async _ _
  · exact ord _ _ (by rw [← List.append_nil (asyncOp last)]; exact orderly_async _ trivial)

/-- **When the wait does not end.** While tasks are paused, or while the main thread holds data for which an unfinished task waits, this task stays unfinished, and the wait does not return. -/
theorem C83_never_ends {s : Store α} {es : List (RtEvent α)} {r r' : Rt α} (hr : Rt.Run (.init s) es (.ok r)) {fs : List (RtEvent α)} (h : Rt.Run r fs (.ok r')) (hw : ∀ e ∈ fs, e.isWorker = true)
    {t : Task α} (ht : t ∈ r.pending) (hb : pausedAfter es = true ∨ ∃ a ∈ r.held, Blocks a.1 a.2 t) : t ∈ r'.pending ∧ ∀ o, ¬ Rt.Next .waitAll r' o := by
  rw [← hr.paused] at hb
  have h1 := h.blocked hw ht hb
  refine ⟨h1, fun o hn => ?_⟩
  cases hn with
  | waitAll hp => rw [hp] at h1; cases h1

/-! ## Example -/

/-- Two tasks, of which the second one is executed first; the main thread reads its result while the first one is not finished, then submits a task which copies the result of the first one. -/
def exampleHistory : List (RtEvent Nat) := [.submit (exampleWrite (0, 0) 7), .submit (exampleWrite (0, 1) 8), .finish 1, .acquire (0, 1) .R, .peek (0, 1) ⟨1, fun _ => some 8⟩, .release (0, 1) .R,
  .submit (exampleCopy (0, 0) (1, 0)), .finish 0, .finish 0]

/-- The hypotheses are met, and at the end the copy has the value 7. -/
example : ∃ r, Rt.Run (.init fun _ => Buf.undef 1) (exampleHistory ++ [.waitAll]) (.ok r) ∧ (r.store (1, 0)).data 0 = some 7 ∧ Orderly [] (mainOf exampleHistory) ∧
    ∃ s', seqStore (mainOf exampleHistory) (fun _ => Buf.undef 1) = .ok s' := by
  have ha : exampleHistory ++ [.waitAll] = [.submit (exampleWrite (0, 0) 7), .submit (exampleWrite (0, 1) 8), .finish 1, .acquire (0, 1) .R, .peek (0, 1) ⟨1, fun _ => some 8⟩, .release (0, 1) .R,
    .submit (exampleCopy (0, 0) (1, 0)), .finish 0, .finish 0, .waitAll] := rfl
  have hc : ¬ Conflict (exampleWrite (0, 1) 8) (exampleWrite (0, 0) 7) := by simp [Conflict, exampleWrite, Task.outs]
  have hb : ¬ Blocks (0, 1) .R (exampleWrite (0, 0) 7) := by simp [Blocks, exampleWrite, Task.outs]
  rw [ha]
  let s0 : Store Nat := fun _ => Buf.undef 1
  let s1 : Store Nat := s0.setAll [(0, 1)] [⟨1, fun _ => some 8⟩]
  let s2 : Store Nat := s1.setAll [(0, 0)] [⟨1, fun _ => some 7⟩]
  let s3 : Store Nat := s2.setAll [(1, 0)] [s2 (0, 0)]
  refine ⟨⟨s3, [], [], false⟩, ?_, rfl, by simp [mainOf, exampleHistory, RtEvent.isWorker, Orderly], _, rfl⟩
  refine .cons (.submit _) (.cons (.submit _) ?_)
  refine .cons (r' := ⟨s1, [exampleWrite (0, 0) 7], [], false⟩) (.finish [exampleWrite (0, 0) 7] [] (exampleWrite (0, 1) 8) rfl rfl (by simpa using hc) (by simp [Rt.init])) ?_
  refine .cons (r' := ⟨s1, [exampleWrite (0, 0) 7], [((0, 1), .R)], false⟩) (.acquire _ _ (by simpa using hb) (by simp)) ?_
  refine .cons (.peek _ _ ⟨.R, List.mem_cons_self ..⟩ rfl) ?_
  refine .cons (.release _ _ (List.mem_cons_self ..)) ?_
  refine .cons (.submit _) ?_
  refine .cons (r' := ⟨s2, [exampleCopy (0, 0) (1, 0)], [], false⟩) (.finish [] [exampleCopy (0, 0) (1, 0)] (exampleWrite (0, 0) 7) rfl rfl (by simp) (by simp)) ?_
  refine .cons (r' := ⟨s3, [], [], false⟩) (.finish [] [] (exampleCopy (0, 0) (1, 0)) rfl rfl (by simp) (by simp)) ?_
  exact .cons (.waitAll rfl) (.nil _)

end NNTile
