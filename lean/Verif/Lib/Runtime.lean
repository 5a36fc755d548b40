import Verif.Spec.Runtime
/-! The store after the unfinished tasks is the store of the program without concurrency. -/
namespace NNTile
variable {α : Type _}

theorem exec_other {t : Task α} {s s' : Store α} (h : t.exec s = .ok s') {k : Handle} (hk : k ∉ t.outs) : s' k = s k := by
  simp only [Task.exec] at h
  split at h
  · cases h
  · rw [M.bind_eq_ok] at h
    obtain ⟨o, -, e⟩ := h
    simp only [Except.ok.injEq] at e
    rw [← e]
    exact setAll_not_mem s hk

theorem runAll_other {l : List (Task α)} {s s' : Store α} (h : runAll l s = .ok s') {k : Handle} (hk : ∀ t ∈ l, k ∉ t.outs) : s' k = s k := by
  induction l generalizing s with
  | nil => cases h; rfl
  | cons t l ih =>
    rw [runAll, M.bind_eq_ok] at h
    obtain ⟨s1, h1, h2⟩ := h
    rw [ih h2 fun u hu => hk u (by simp [hu]), exec_other h1 (hk t (by simp))]

private def putTask (h : Handle) (b : Buf α) : Task α := ⟨"put", [], [(h, .W)], fun _ _ => .ok [b]⟩

private theorem putTask_exec (h : Handle) (b : Buf α) (s : Store α) : (putTask h b).exec s = .ok (s.put h b) := by
  rw [Task.exec, if_neg (by simp [putTask, Task.outs])]
  simp only [putTask, M.bind_ok, Task.outs, List.map_cons, List.map_nil, Store.setAll]
  rfl

theorem exec_put {t : Task α} {s s' : Store α} (h : t.exec s = .ok s') {k : Handle} (b : Buf α) (hk : ¬ Blocks k .W t) : t.exec (s.put k b) = .ok (s'.put k b) := by
  simp only [Blocks, not_or, not_and, ne_eq, reduceCtorEq, not_false_eq_true, forall_true_left] at hk
  have hc : ¬ Conflict t (putTask k b) := by
    rintro (⟨h, h1, h2⟩ | ⟨h, h1, h2⟩)
    · simp only [putTask, Task.outs, List.map_cons, List.map_nil, List.mem_cons, List.not_mem_nil, or_false] at h2
      subst h2
      exact hk.1 h1
    · simp only [putTask, Task.outs, List.map_cons, List.map_nil, List.mem_cons, List.not_mem_nil, or_false] at h1
      subst h1
      exact hk.2 h2
  obtain ⟨s3, e1, e2⟩ := exec_comm hc h (putTask_exec k b s')
  rw [putTask_exec] at e1
  cases e1
  exact e2

theorem runAll_put {l : List (Task α)} {s s' : Store α} (h : runAll l s = .ok s') {k : Handle} (b : Buf α) (hk : ∀ t ∈ l, ¬ Blocks k .W t) : runAll l (s.put k b) = .ok (s'.put k b) := by
  induction l generalizing s with
  | nil => cases h; rfl
  | cons t l ih =>
    rw [runAll, M.bind_eq_ok] at h
    obtain ⟨s1, h1, h2⟩ := h
    rw [runAll, exec_put h1 b (hk t (by simp)), M.bind_ok]
    exact ih h2 fun u hu => hk u (by simp [hu])

/-- A task which does not conflict with the tasks before it may be executed first. -/
theorem runAll_early {t : Task α} {l l' : List (Task α)} {s s' : Store α} (hc : ∀ u ∈ l, ¬ Conflict u t) (h : runAll (l ++ t :: l') s = .ok s') : runAll (t :: (l ++ l')) s = .ok s' := by
  induction l generalizing s with
  | nil => exact h
  | cons u l ih =>
    simp only [List.cons_append, runAll] at h
    rw [M.bind_eq_ok] at h
    obtain ⟨s1, h1, h2⟩ := h
    have h3 := ih (fun v hv => hc v (by simp [hv])) h2
    rw [runAll, M.bind_eq_ok] at h3
    obtain ⟨s2, h4, h5⟩ := h3
    obtain ⟨s3, h6, h7⟩ := exec_comm (hc u (by simp)) h1 h4
    simp only [List.cons_append, runAll, h6, M.bind_ok, h7]
    exact h5

theorem conflict_symm {t u : Task α} (h : Conflict t u) : Conflict u t := by
  rcases h with ⟨k, h1, h2 | h2⟩ | ⟨k, h1, h2⟩
  · exact .inl ⟨k, h2, .inl h1⟩
  · exact .inr ⟨k, h1, h2⟩
  · exact .inl ⟨k, h1, .inr h2⟩

/-- The invariant: the unfinished tasks lead to the store of the program without concurrency, and none of them waits for the main thread. -/
structure Rt.Inv (r : Rt α) (s : Store α) : Prop where
  seq : runAll r.pending r.store = .ok s
  free : ∀ a ∈ r.held, ∀ t ∈ r.pending, ¬ Blocks a.1 a.2 t

theorem Rt.Inv.init (s : Store α) : (Rt.init s).Inv s := ⟨rfl, by simp [Rt.init]⟩

theorem not_blocks_W {h : Handle} {m : AcqMode} (hm : m ≠ .R) {t : Task α} (hb : ¬ Blocks h m t) : ¬ Blocks h .W t := by
  rintro (h1 | ⟨-, h1⟩)
  · exact hb (.inl h1)
  · exact hb (.inr ⟨hm, h1⟩)

theorem Rt.Inv.next {r : Rt α} {s s' : Store α} (hI : r.Inv s) {e : RtEvent α} {es : List (RtEvent α)} {o : M (Rt α)} (h : Rt.Next e r o) (hs : seqStore (e :: es) s = .ok s')
    (ho : Orderly r.held (e :: es)) : ∃ r' s1, o = .ok r' ∧ r'.Inv s1 ∧ seqStore es s1 = .ok s' ∧ Orderly r'.held es := by
  cases h with
  | submit t =>
    rw [seqStore, M.bind_eq_ok] at hs
    obtain ⟨s1, h1, h2⟩ := hs
    refine ⟨_, s1, rfl, ⟨?_, ?_⟩, h2, ho.2⟩
    · rw [runAll_append, hI.seq, M.bind_ok, runAll, h1, M.bind_ok, runAll]
    · intro a ha u hu
      simp only [List.mem_append, List.mem_cons, List.not_mem_nil, or_false] at hu
      rcases hu with hu | rfl
      · exact hI.free a ha u hu
      · exact ho.1 a ha
  | finish l l' t hp hrun hdep hheld =>
    have h1 := runAll_early (fun u hu hc => hdep u hu (conflict_symm hc)) (hp ▸ hI.seq)
    rw [runAll, M.bind_eq_ok] at h1
    obtain ⟨s1, h2, h3⟩ := h1
    refine ⟨{ r with store := s1, pending := l ++ l' }, s, by rw [h2, M.bind_ok], ⟨h3, ?_⟩, hs, ho⟩
    intro a ha u hu
    refine hI.free a ha u ?_
    simp only [List.mem_append] at hu
    rw [hp]
    simp only [List.mem_append, List.mem_cons]
    rcases hu with hu | hu
    · exact .inl hu
    · exact .inr (.inr hu)
  | acquire h m hdep hheld =>
    have hf : ∀ a ∈ (h, m) :: r.held, ∀ t ∈ r.pending, ¬ Blocks a.1 a.2 t := by
      intro a ha t ht
      rw [List.mem_cons] at ha
      rcases ha with rfl | ha
      · exact hdep t ht
      · exact hI.free a ha t ht
    by_cases hm : m = .W
    · subst hm
      have e : s h = r.store h := runAll_other hI.seq fun t ht hk => hdep t ht (.inl hk)
      refine ⟨_, s.put h (Buf.undef (s h).size), rfl, ⟨?_, hf⟩, hs, ho⟩
      simp only [if_true]
      rw [← e]
      exact runAll_put hI.seq _ hdep
    · refine ⟨_, s, rfl, ⟨?_, hf⟩, ?_, ho⟩
      · rw [if_neg hm]
        exact hI.seq
      · cases m with
        | W => exact absurd rfl hm
        | R => exact hs
        | RW => exact hs
  | peek h b hheld hb => exact ⟨_, s, rfl, hI, hs, ho⟩
  | poke h b hheld =>
    obtain ⟨m, hm, hh⟩ := hheld
    refine ⟨_, s.put h b, rfl, ⟨runAll_put hI.seq _ fun t ht => not_blocks_W hm (hI.free _ hh t ht), hI.free⟩, hs, ho⟩
  | register h n hdep hheld => exact ⟨_, s.put h (Buf.undef n), rfl, ⟨runAll_put hI.seq _ hdep, hI.free⟩, hs, ho⟩
  | unregister h hdep hheld => exact ⟨_, s.put h (Buf.undef 0), rfl, ⟨runAll_put hI.seq _ hdep, hI.free⟩, hs, ho⟩
  | release h m hheld => exact ⟨_, s, rfl, ⟨hI.seq, fun a ha => hI.free a (List.mem_of_mem_erase ha)⟩, hs, ho⟩
  | waitAll hp => exact ⟨_, s, rfl, hI, hs, ho⟩
  | pause => exact ⟨_, s, rfl, ⟨hI.seq, hI.free⟩, hs, ho⟩
  | resume => exact ⟨_, s, rfl, ⟨hI.seq, hI.free⟩, hs, ho⟩

theorem Rt.Inv.run {r : Rt α} {s s' : Store α} (hI : r.Inv s) {es : List (RtEvent α)} {o : M (Rt α)} (h : Rt.Run r es o) (hs : seqStore es s = .ok s') (ho : Orderly r.held es) :
    ∃ r', o = .ok r' ∧ r'.Inv s' := by
  induction h generalizing s with
  | nil r => cases hs; exact ⟨r, rfl, hI⟩
  | cons h _ ih =>
    obtain ⟨r', s1, e, h1, h2, h3⟩ := hI.next h hs ho
    cases e
    exact ih h1 h2 h3
  | fail h =>
    obtain ⟨r', s1, e, -⟩ := hI.next h hs ho
    cases e

theorem seqStore_main (es : List (RtEvent α)) (s : Store α) : seqStore (mainOf es) s = seqStore es s := by
  induction es generalizing s with
  | nil => rfl
  | cons e es ih =>
    cases e with
    | submit t =>
      show (t.exec s >>= fun s => seqStore (mainOf es) s) = t.exec s >>= fun s => seqStore es s
      congr 1
      funext s
      exact ih s
    | acquire h m => cases m <;> exact ih _
    | finish i => exact ih _
    | peek h b => exact ih _
    | poke h b => exact ih _
    | register h n => exact ih _
    | unregister h => exact ih _
    | release h m => exact ih _
    | waitAll => exact ih _
    | pause => exact ih _
    | resume => exact ih _

theorem orderly_main (es : List (RtEvent α)) (held : List (Handle × AcqMode)) : Orderly held (mainOf es) ↔ Orderly held es := by
  induction es generalizing held with
  | nil => exact Iff.rfl
  | cons e es ih =>
    cases e with
    | submit t => exact and_congr_right fun _ => ih _
    | finish i => exact ih _
    | acquire h m => exact ih _
    | peek h b => exact ih _
    | poke h b => exact ih _
    | register h n => exact ih _
    | unregister h => exact ih _
    | release h m => exact ih _
    | waitAll => exact ih _
    | pause => exact ih _
    | resume => exact ih _

theorem Rt.Run.append_ok {r r' : Rt α} {es es' : List (RtEvent α)} {o : M (Rt α)} (h : Rt.Run r es (.ok r')) (h' : Rt.Run r' es' o) : Rt.Run r (es ++ es') o := by
  generalize hq : (Except.ok r' : M (Rt α)) = q at h
  induction h with
  | nil r => cases hq; exact h'
  | cons h _ ih => exact .cons h (ih hq)
  | fail h => cases hq

/-- The last event of a history. -/
theorem Rt.Run.last {r : Rt α} {es : List (RtEvent α)} {e : RtEvent α} {r' : Rt α} (h : Rt.Run r (es ++ [e]) (.ok r')) : ∃ r1, Rt.Run r es (.ok r1) ∧ Rt.Next e r1 (.ok r') := by
  induction es generalizing r with
  | nil =>
    rw [List.nil_append] at h
    cases h with
    | cons h hs =>
      cases hs
      exact ⟨r, .nil r, h⟩
  | cons d es ih =>
    rw [List.cons_append] at h
    generalize hl : es ++ [e] = l at h
    cases h with
    | cons h hs =>
      subst hl
      obtain ⟨r1, h1, h2⟩ := ih hs
      exact ⟨r1, .cons h h1, h2⟩

theorem seqStore_append (es es' : List (RtEvent α)) (s : Store α) : seqStore (es ++ es') s = seqStore es s >>= seqStore es' := by
  induction es generalizing s with
  | nil => rfl
  | cons e es ih =>
    cases e with
    | submit t =>
      simp only [List.cons_append, seqStore]
      cases t.exec s with
      | error x => rfl
      | ok s1 => exact ih s1
    | acquire h m => cases m <;> exact ih _
    | finish i => exact ih _
    | peek h b => exact ih _
    | poke h b => exact ih _
    | register h n => exact ih _
    | unregister h => exact ih _
    | release h m => exact ih _
    | waitAll => exact ih _
    | pause => exact ih _
    | resume => exact ih _

theorem orderly_snoc {es : List (RtEvent α)} {e : RtEvent α} (he : ∀ t, e ≠ .submit t) {held : List (Handle × AcqMode)} (h : Orderly held es) : Orderly held (es ++ [e]) := by
  induction es generalizing held with
  | nil =>
    cases e with
    | submit t => exact absurd rfl (he t)
    | _ => trivial
  | cons d es ih =>
    cases d with
    | submit t => exact ⟨h.1, ih h.2⟩
    | finish i => exact ih (held := held) h
    | acquire k m => exact ih (held := (k, m) :: held) h
    | peek k b => exact ih (held := held) h
    | poke k b => exact ih (held := held) h
    | register k n => exact ih (held := held) h
    | unregister k => exact ih (held := held) h
    | release k m => exact ih (held := held.erase (k, m)) h
    | waitAll => exact ih (held := held) h
    | pause => exact ih (held := held) h
    | resume => exact ih (held := held) h

/-- Before the last event. -/
theorem Rt.Inv.last {s s' : Store α} {es : List (RtEvent α)} {e : RtEvent α} (he : ∀ t, e ≠ .submit t) (hs : seqStore es s = .ok s') (ho : Orderly [] es)
    (hq : ∃ s2, seqStore [e] s' = .ok s2) {o : M (Rt α)} (h : Rt.Run (.init s) (es ++ [e]) o) : ∃ r r', o = .ok r' ∧ Rt.Run (.init s) es (.ok r) ∧ r.Inv s' ∧ Rt.Next e r (.ok r') := by
  obtain ⟨s2, hq⟩ := hq
  obtain ⟨r', rfl, -⟩ := (Rt.Inv.init s).run h (by rw [seqStore_append, hs, M.bind_ok, hq]) (orderly_snoc he ho)
  obtain ⟨r, h1, h2⟩ := h.last
  obtain ⟨r1, e1, h3⟩ := (Rt.Inv.init s).run h1 hs ho
  cases e1
  exact ⟨r, r', rfl, h1, h3, h2⟩

/-- Tasks which wait for the main thread stay unfinished while only workers do something. -/
theorem Rt.Run.blocked {r r' : Rt α} {es : List (RtEvent α)} (h : Rt.Run r es (.ok r')) (hw : ∀ e ∈ es, e.isWorker = true) {t : Task α} (ht : t ∈ r.pending)
    (hb : r.paused = true ∨ ∃ a ∈ r.held, Blocks a.1 a.2 t) : t ∈ r'.pending := by
  generalize hq : (Except.ok r' : M (Rt α)) = q at h
  induction h with
  | nil r => cases hq; exact ht
  | @cons r r1 e es o h _ ih =>
    have he := hw e (by simp)
    cases e with
    | finish i =>
      generalize hq' : (Except.ok r1 : M (Rt α)) = q' at h
      cases h with
      | finish l l' u hp hrun hdep hheld =>
        obtain ⟨s1, -, e1⟩ := M.bind_eq_ok.1 hq'.symm
        simp only [Except.ok.injEq] at e1
        subst e1
        refine ih (fun e he => hw e (by simp [he])) ?_ hb hq
        have hne : t ≠ u := by
          rintro rfl
          rcases hb with hb | ⟨a, ha, hb⟩
          · rw [hrun] at hb; cases hb
          · exact hheld a ha hb
        rw [hp] at ht
        simp only [List.mem_append, List.mem_cons, hne, false_or] at ht ⊢
        exact ht
    | _ => simp [RtEvent.isWorker] at he
  | fail h => cases hq

/-- Workers finish one task after the other. -/
theorem Rt.Run.count {r r' : Rt α} {es : List (RtEvent α)} (h : Rt.Run r es (.ok r')) (hw : ∀ e ∈ es, e.isWorker = true) : r'.pending.length + es.length = r.pending.length := by
  generalize hq : (Except.ok r' : M (Rt α)) = q at h
  induction h with
  | nil r => cases hq; rfl
  | @cons r r1 e es o h _ ih =>
    have he := hw e (by simp)
    cases e with
    | finish i =>
      generalize hq' : (Except.ok r1 : M (Rt α)) = q' at h
      cases h with
      | finish l l' u hp hrun hdep hheld =>
        obtain ⟨s1, -, e1⟩ := M.bind_eq_ok.1 hq'.symm
        simp only [Except.ok.injEq] at e1
        subst e1
        have := ih (fun e he => hw e (by simp [he])) hq
        rw [hp]
        simp only [List.length_append, List.length_cons] at this ⊢
        omega
    | _ => simp [RtEvent.isWorker] at he
  | fail h => cases hq

/-- The unfinished tasks can be finished in the order of their submission. -/
theorem Rt.Inv.drain {r : Rt α} {s : Store α} (hI : r.Inv s) (hp : r.paused = false) : Rt.Run r (List.replicate r.pending.length (.finish 0)) (.ok { r with store := s, pending := [] }) := by
  obtain ⟨st, pd, held, pz⟩ := r
  induction pd generalizing st with
  | nil =>
    have := hI.seq
    simp only [runAll, Except.ok.injEq] at this
    subst this
    exact .nil _
  | cons t ts ih =>
    have h1 := hI.seq
    simp only [runAll] at h1
    obtain ⟨s1, h2, h3⟩ := M.bind_eq_ok.1 h1
    have hn := Rt.Next.finish (r := ⟨st, t :: ts, held, pz⟩) [] ts t rfl hp (by simp) fun a ha => hI.free a ha t (by simp)
    simp only [h2, M.bind_ok, List.nil_append, List.length_nil] at hn
    exact .cons hn (ih s1 ⟨h3, fun a ha u hu => hI.free a ha u (by simp [show u ∈ ts from hu])⟩ hp)

/-- Tasks can be submitted. -/
theorem Rt.Run.submits (r : Rt α) (ts : List (Task α)) : Rt.Run r (asyncOp ts) (.ok { r with pending := r.pending ++ ts }) := by
  induction ts generalizing r with
  | nil =>
    rw [List.append_nil]
    exact .nil r
  | cons t ts ih =>
    have := ih { r with pending := r.pending ++ [t] }
    simp only [List.append_assoc, List.singleton_append] at this
    exact .cons (.submit t) this

/-- What the main thread reads. -/
theorem Rt.Inv.reads {r : Rt α} {s s' : Store α} (hI : r.Inv s) {es : List (RtEvent α)} {o : M (Rt α)} (h : Rt.Run r es o) (hs : seqStore es s = .ok s') (ho : Orderly r.held es) :
    ReadsRight es s := by
  induction h generalizing s with
  | nil r => trivial
  | @cons r r1 e es o h _ ih =>
    obtain ⟨r', s1, e1, h1, h2, h3⟩ := hI.next h hs ho
    cases e1
    have hr := ih h1 h2 h3
    cases e with
    | submit t =>
      rw [seqStore] at hs
      obtain ⟨s2, q1, q2⟩ := M.bind_eq_ok.1 hs
      intro s3 q3
      rw [q1] at q3
      cases q3
      obtain ⟨r2, s4, e2, g1, g2, g3⟩ := hI.next (es := []) h (by rw [seqStore, q1]; rfl) ⟨ho.1, trivial⟩
      cases e2
      cases g2
      exact ih g1 q2 h3
    | acquire k m =>
      obtain ⟨r2, s4, e2, g1, g2, g3⟩ := hI.next (es := []) h (s' := if m = .W then s.put k (Buf.undef (s k).size) else s) (by cases m <;> rfl) (by trivial)
      cases e2
      cases g2
      cases m with
      | W => exact ih g1 hs h3
      | R => exact ih g1 hs h3
      | RW => exact ih g1 hs h3
    | peek k b =>
      obtain ⟨r2, s4, e2, g1, g2, g3⟩ := hI.next (es := []) h (s' := s) rfl trivial
      cases e2
      cases g2
      refine ⟨?_, ih g1 hs h3⟩
      cases h with
      | peek _ _ hheld hb =>
        obtain ⟨m, hm⟩ := hheld
        rw [hb]
        exact (runAll_other hI.seq fun t ht hk => hI.free _ hm t ht (.inl hk)).symm
    | poke k b =>
      obtain ⟨r2, s4, e2, g1, g2, g3⟩ := hI.next (es := []) h (s' := s.put k b) rfl trivial
      cases e2
      cases g2
      exact ih g1 hs h3
    | register k n =>
      obtain ⟨r2, s4, e2, g1, g2, g3⟩ := hI.next (es := []) h (s' := s.put k (Buf.undef n)) rfl trivial
      cases e2
      cases g2
      exact ih g1 hs h3
    | unregister k =>
      obtain ⟨r2, s4, e2, g1, g2, g3⟩ := hI.next (es := []) h (s' := s.put k (Buf.undef 0)) rfl trivial
      cases e2
      cases g2
      exact ih g1 hs h3
    | finish i =>
      obtain ⟨r2, s4, e2, g1, g2, g3⟩ := hI.next (es := []) h (s' := s) rfl trivial
      cases e2
      cases g2
      exact ih g1 hs h3
    | release k m =>
      obtain ⟨r2, s4, e2, g1, g2, g3⟩ := hI.next (es := []) h (s' := s) rfl trivial
      cases e2
      cases g2
      exact ih g1 hs h3
    | waitAll =>
      obtain ⟨r2, s4, e2, g1, g2, g3⟩ := hI.next (es := []) h (s' := s) rfl trivial
      cases e2
      cases g2
      exact ih g1 hs h3
    | pause =>
      obtain ⟨r2, s4, e2, g1, g2, g3⟩ := hI.next (es := []) h (s' := s) rfl trivial
      cases e2
      cases g2
      exact ih g1 hs h3
    | resume =>
      obtain ⟨r2, s4, e2, g1, g2, g3⟩ := hI.next (es := []) h (s' := s) rfl trivial
      cases e2
      cases g2
      exact ih g1 hs h3
  | fail h =>
    obtain ⟨r', s1, e1, -⟩ := hI.next h hs ho
    cases e1

theorem readsRight_main (es : List (RtEvent α)) (s : Store α) : ReadsRight (mainOf es) s ↔ ReadsRight es s := by
  induction es generalizing s with
  | nil => exact Iff.rfl
  | cons e es ih =>
    cases e with
    | submit t => exact forall_congr' fun s' => imp_congr_right fun _ => ih s'
    | finish i => exact ih _
    | acquire h m => cases m <;> exact ih _
    | peek h b => exact and_congr_right fun _ => ih _
    | poke h b => exact ih _
    | register h n => exact ih _
    | unregister h => exact ih _
    | release h m => exact ih _
    | waitAll => exact ih _
    | pause => exact ih _
    | resume => exact ih _

theorem seqStore_async (ts : List (Task α)) (s : Store α) : seqStore (asyncOp ts) s = runAll ts s := by
  induction ts generalizing s with
  | nil => rfl
  | cons t ts ih =>
    show (t.exec s >>= fun s => seqStore (asyncOp ts) s) = _
    rw [runAll]
    congr 1
    funext s
    exact ih s

theorem orderly_async (ts : List (Task α)) {es : List (RtEvent α)} (h : Orderly [] es) : Orderly [] (asyncOp ts ++ es) := by
  induction ts with
  | nil => exact h
  | cons t ts ih => exact ⟨by simp, ih⟩

theorem readsRight_async {ts : List (Task α)} {es : List (RtEvent α)} {s s' : Store α} (h : ReadsRight (asyncOp ts ++ es) s) (hs : runAll ts s = .ok s') : ReadsRight es s' := by
  induction ts generalizing s with
  | nil => cases hs; exact h
  | cons t ts ih =>
    rw [runAll] at hs
    obtain ⟨s1, h1, h2⟩ := M.bind_eq_ok.1 hs
    exact ih (h s1 h1) h2

theorem Rt.Run.paused {s : Store α} {es : List (RtEvent α)} {r : Rt α} (h : Rt.Run (.init s) es (.ok r)) : r.paused = pausedAfter es := by
  have key : ∀ {r0 r : Rt α} {es : List (RtEvent α)}, Rt.Run r0 es (.ok r) → r.paused = es.foldl (fun p e => match e with
      | .pause => true
      | .resume => false
      | _ => p) r0.paused := by
    intro r0 r es h
    generalize hq : (Except.ok r : M (Rt α)) = q at h
    induction h with
    | nil r => cases hq; rfl
    | @cons r0 r1 e es o h _ ih =>
      rw [ih hq, List.foldl_cons]
      generalize hq' : (Except.ok r1 : M (Rt α)) = q' at h
      cases h with
      | finish l l' t hp hrun hdep hheld =>
        obtain ⟨s1, -, e1⟩ := M.bind_eq_ok.1 hq'.symm
        cases e1
        rfl
      | _ => cases hq'; rfl
    | fail h => cases hq
  exact key h

theorem pausedAfter_main (es : List (RtEvent α)) : pausedAfter (mainOf es) = pausedAfter es := by
  suffices h : ∀ b : Bool, (mainOf es).foldl (fun p e => match e with
      | .pause => true
      | .resume => false
      | _ => p) b = es.foldl (fun p e => match e with
      | .pause => true
      | .resume => false
      | _ => p) b from h false
  intro b
  induction es generalizing b with
  | nil => rfl
  | cons e es ih =>
    cases e with
    | pause => exact ih true
    | resume => exact ih false
    | _ => exact ih b

theorem pausedAfter_none {es : List (RtEvent α)} (h : ∀ e ∈ es, e ≠ .pause) : pausedAfter es = false := by
  suffices h : es.foldl (fun p e => match e with
      | .pause => true
      | .resume => false
      | _ => p) false = false from h
  induction es with
  | nil => rfl
  | cons e es ih =>
    have h1 := h e (by simp)
    have h2 := ih fun e he => h e (by simp [he])
    cases e with
    | pause => exact absurd rfl h1
    | _ => exact h2

theorem Orderly.prefix {es es' : List (RtEvent α)} {held : List (Handle × AcqMode)} (h : Orderly held (es ++ es')) : Orderly held es := by
  induction es generalizing held with
  | nil => trivial
  | cons d es ih =>
    cases d with
    | submit t => exact ⟨h.1, ih h.2⟩
    | finish i => exact ih (held := held) h
    | acquire k m => exact ih (held := (k, m) :: held) h
    | peek k b => exact ih (held := held) h
    | poke k b => exact ih (held := held) h
    | register k n => exact ih (held := held) h
    | unregister k => exact ih (held := held) h
    | release k m => exact ih (held := held.erase (k, m)) h
    | waitAll => exact ih (held := held) h
    | pause => exact ih (held := held) h
    | resume => exact ih (held := held) h

end NNTile
