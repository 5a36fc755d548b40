import Verif.Model.NumpyRuntime
import Verif.Props.C83
import Verif.Props.C79
import Verif.Props.C46
import Verif.Lib.ReduxOps
/-!
# C87: numpy arrays are exchanged with tensors while tasks run
-/
namespace NNTile
variable {α : Type}

/-- The data without that of the temporary tensor, which is gone at the end of `from_array` and `to_array` (they use none for a tensor without dimensions). -/
def withoutTemporary (T : Tensor) (tmpId : Nat) (s : Store α) : Store α := if T.ndim = 0 then s else s.put (tmpId, 0) (Buf.undef 0)

/-- The program without concurrency: each operation is complete before the next one starts. `NpSeq ops s s' outs`: it leads from the data `s` to `s'` and fills the arrays `outs`. The data of a tensor without
dimensions must have one element, as the constructor of tensors allocates it. -/
inductive NpSeq : List (NpOp α) → Store α → Store α → List (NpArray α) → Prop
  | nil (s : Store α) : NpSeq [] s s []
  | async {ts : List (Task α)} {ops outs s s1 s'} (e : runAll ts s = .ok s1) (h : NpSeq ops s1 s' outs) : NpSeq (.async ts :: ops) s s' outs
  | wait {ops outs s s'} (h : NpSeq ops s s' outs) : NpSeq (.wait :: ops) s s' outs
  | fromArray {T : Tensor} {tmpId : Nat} {array : NpArray α} {ops outs s s1 s'} (hsize : T.ndim = 0 → (s (T.id, 0)).size = 1) (e : NNTile.fromArray T tmpId array s = .ok s1)
      (h : NpSeq ops (withoutTemporary T tmpId s1) s' outs) : NpSeq (.fromArray T tmpId array :: ops) s s' outs
  | toArray {T : Tensor} {tmpId : Nat} {array : NpArray α} {ops outs s s1 s' out} (e : NNTile.toArray T tmpId array s = .ok (out, s1)) (h : NpSeq ops (withoutTemporary T tmpId s1) s' outs) :
      NpSeq (.toArray T tmpId array :: ops) s s' (out :: outs)
  | unregister {T : Tensor} {ops outs s s1 s'} (e : ∀ h : Handle, s1 h = if h.1 = T.id ∧ h.2 < T.ntiles then Buf.undef 0 else s h) (h : NpSeq ops s1 s' outs) : NpSeq (.unregister T :: ops) s s' outs

private theorem tmp_handle {tmpId : Nat} {S : List Nat} {T : Tensor} {h : Handle} (e : newTensorD tmpId S S 1 = .ok T) (eh : T.handleL 0 = .ok h) : h = (tmpId, 0) := by
  rw [(handleL_eq eh).2, newTensorD_id e]

/-- A piece of a program: without concurrency it leads from `s` to `s1`; it holds no data at its end; and it can be executed. -/
private structure Piece (m : List (RtEvent α)) (s s1 : Store α) : Prop where
  seq : seqStore m s = .ok s1
  ord : ∀ es, Orderly [] es → Orderly [] (m ++ es)
  reads : ∀ es, ReadsRight (m ++ es) s → ReadsRight es s1
  run : ∃ fs, mainOf fs = m ∧ Rt.Run (.init s) fs (.ok (.init s1))
  pause : ∀ e ∈ m, e ≠ .pause

private theorem mainOf_append (es fs : List (RtEvent α)) : mainOf (es ++ fs) = mainOf es ++ mainOf fs := List.filter_append ..

private theorem Piece.nil (s : Store α) : Piece [] s s := ⟨rfl, fun _ h => h, fun _ h => h, ⟨[], rfl, .nil _⟩, by simp⟩

private theorem Piece.append {m m' : List (RtEvent α)} {s s1 s2 : Store α} (h : Piece m s s1) (h' : Piece m' s1 s2) : Piece (m ++ m') s s2 := by
  refine ⟨?_, fun es he => ?_, fun es he => ?_, ?_, fun e he => ?_⟩
  · rw [seqStore_append, h.seq, M.bind_ok, h'.seq]
  · rw [List.append_assoc]
    exact h.ord _ (h'.ord _ he)
  · rw [List.append_assoc] at he
    exact h'.reads _ (h.reads _ he)
  · obtain ⟨f, e1, r1⟩ := h.run
    obtain ⟨g, e2, r2⟩ := h'.run
    exact ⟨f ++ g, by rw [mainOf_append, e1, e2], r1.append_ok r2⟩
  · rw [List.mem_append] at he
    rcases he with he | he
    · exact h.pause e he
    · exact h'.pause e he

private theorem Piece.async {ts : List (Task α)} {s s1 : Store α} (h : runAll ts s = .ok s1) : Piece (asyncOp ts) s s1 := by
  refine ⟨by rw [seqStore_async, h], fun es he => orderly_async ts he, fun es he => readsRight_async he h, ?_, fun e he => ?_⟩
  · have r1 := Rt.Run.submits (.init s) ts
    have hI : Rt.Inv { Rt.init s with pending := (Rt.init s).pending ++ ts } s1 := ⟨h, by simp [Rt.init]⟩
    refine ⟨_, ?_, r1.append_ok (hI.drain rfl)⟩
    rw [mainOf_append, mainOf, mainOf, List.filter_eq_self.2 (fun e he => ?_), List.filter_eq_nil_iff.2 (fun e he => ?_), List.append_nil]
    · rw [List.eq_of_mem_replicate he]
      simp [RtEvent.isWorker]
    · simp only [asyncOp, List.mem_map] at he
      obtain ⟨t, -, rfl⟩ := he
      rfl
  · simp only [asyncOp, List.mem_map] at he
    obtain ⟨t, -, rfl⟩ := he
    simp

private theorem Piece.wait (s : Store α) : Piece [.waitAll] s s := ⟨rfl, fun _ h => h, fun _ h => h, ⟨[.waitAll], rfl, .cons (.waitAll rfl) (.nil _)⟩, by simp⟩

private theorem Piece.blocking {ts : List (Task α)} {s s1 : Store α} (h : runAll ts s = .ok s1) : Piece (blockingOp ts) s s1 := (Piece.async h).append (.wait _)

private theorem Piece.register (k : Handle) (n : Nat) (s : Store α) : Piece [.register k n] s (s.put k (Buf.undef n)) :=
  ⟨rfl, fun _ h => h, fun _ h => h, ⟨[.register k n], rfl, .cons (.register k n (by simp [Rt.init]) (by simp [Rt.init])) (.nil _)⟩, by simp⟩

private theorem put_put (s : Store α) (k : Handle) (b c : Buf α) : (s.put k b).put k c = s.put k c := by
  funext x
  unfold Store.put
  split <;> rfl

private theorem Piece.write (k : Handle) (b : Buf α) (s : Store α) : Piece [.acquire k .W, .poke k b, .release k .W] s (s.put k b) := by
  refine ⟨?_, fun es he => ?_, fun es he => ?_, ⟨[.acquire k .W, .poke k b, .release k .W], rfl, ?_⟩, by simp⟩
  · show Except.ok ((s.put k _).put k b) = _
    rw [put_put]
  · simpa [Orderly] using he
  · have he : ReadsRight es ((s.put k (Buf.undef (s k).size)).put k b) := he
    rwa [put_put] at he
  · refine .cons (.acquire _ _ (by simp [Rt.init]) (by simp [Rt.init])) ?_
    refine .cons (.poke _ _ ⟨.W, by simp, List.mem_cons_self ..⟩) ?_
    refine .cons (r' := .init (s.put k b)) ?_ (.nil _)
    have := Rt.Next.release (r := ⟨(s.put k (Buf.undef (s k).size)).put k b, [], [(k, .W)], false⟩) k .W (List.mem_cons_self ..)
    simpa [Rt.init, put_put] using this

private theorem Piece.read (k : Handle) (s : Store α) : Piece [.acquire k .R, .peek k (s k), .release k .R] s s := by
  refine ⟨rfl, fun es he => by simpa [Orderly] using he, fun es he => he.2, ⟨[.acquire k .R, .peek k (s k), .release k .R], rfl, ?_⟩, by simp⟩
  refine .cons (r' := ⟨s, [], [(k, .R)], false⟩) (.acquire _ _ (by simp [Rt.init]) (by simp [Rt.init])) ?_
  refine .cons (.peek _ _ ⟨.R, List.mem_cons_self ..⟩ rfl) ?_
  refine .cons (r' := .init s) ?_ (.nil _)
  have := Rt.Next.release (r := ⟨s, [], [(k, .R)], false⟩) k .R (List.mem_cons_self ..)
  simpa [Rt.init] using this

private theorem Piece.unregister (k : Handle) (s : Store α) : Piece [.unregister k] s (s.put k (Buf.undef 0)) :=
  ⟨rfl, fun _ h => h, fun _ h => h, ⟨[.unregister k], rfl, .cons (.unregister k (by simp [Rt.init]) (by simp [Rt.init])) (.nil _)⟩, by simp⟩

private theorem Piece.tensor (T : Tensor) (s : Store α) : Piece (unregisterMain T) s fun h => if h.1 = T.id ∧ h.2 < T.ntiles then Buf.undef 0 else s h := by
  unfold unregisterMain
  induction T.ntiles with
  | zero =>
    have e : (fun h : Handle => if h.1 = T.id ∧ h.2 < 0 then (Buf.undef 0 : Buf α) else s h) = s := by
      funext h
      simp
    rw [e]
    exact Piece.nil s
  | succ n ih =>
    rw [List.range_succ, List.map_append]
    have e : (fun h : Handle => if h.1 = T.id ∧ h.2 < n + 1 then (Buf.undef 0 : Buf α) else s h) =
        Store.put (fun h : Handle => if h.1 = T.id ∧ h.2 < n then (Buf.undef 0 : Buf α) else s h) (T.id, n) (Buf.undef 0) := by
      funext ⟨i, j⟩
      simp only [Store.put, Prod.mk.injEq]
      by_cases h : i = T.id <;> by_cases h' : j = n
      · simp [h, h']
      · have : j < n + 1 ↔ j < n := by omega
        simp [h, h', this]
      · simp [h]
      · simp [h]
    rw [e]
    exact ih.append (Piece.unregister (T.id, n) _)

private theorem from_main {T : Tensor} {tmpId : Nat} {array : NpArray α} {s s1 : Store α} (hsize : T.ndim = 0 → (s (T.id, 0)).size = 1) (e : fromArray T tmpId array s = .ok s1) :
    ∃ m, fromArrayMain T tmpId array = .ok m ∧ Piece m s (withoutTemporary T tmpId s1) := by
  unfold fromArray at e
  unfold fromArrayMain
  split at e
  · rename_i h0
    obtain ⟨_, e1, e⟩ := M.bind_eq_ok.1 e
    obtain ⟨h, e2, e⟩ := M.bind_eq_ok.1 e
    obtain ⟨b, e3, e⟩ := M.bind_eq_ok.1 e
    cases e
    have hh := (handleL_eq e2).2
    rw [hh, hsize h0] at e3
    refine ⟨_, by rw [if_pos h0, e1, M.bind_ok, e2, M.bind_ok, e3, M.bind_ok], ?_⟩
    rw [withoutTemporary, if_pos h0]
    exact Piece.write h b s
  · rename_i h0
    obtain ⟨_, e1, e⟩ := M.bind_eq_ok.1 e
    obtain ⟨r, e2, e⟩ := M.bind_eq_ok.1 e
    obtain ⟨h, e3, e⟩ := M.bind_eq_ok.1 e
    obtain ⟨b, e4, e⟩ := M.bind_eq_ok.1 e
    obtain ⟨tasks, e5, e⟩ := M.bind_eq_ok.1 e
    obtain ⟨tmp, q1, q2⟩ := M.bind_eq_ok.1 e2
    cases q2
    have hh := tmp_handle q1 e3
    subst hh
    simp only [Store.set, if_true] at e4
    refine ⟨_, by rw [if_neg h0, e1, M.bind_ok, q1, M.bind_ok, e3, M.bind_ok]; simp only [Buf.undef] at e4 ⊢; rw [e4, M.bind_ok, e5, M.bind_ok], ?_⟩
    rw [withoutTemporary, if_neg h0]
    refine ((((Piece.register (tmpId, 0) T.shape.prod s).append (Piece.write (tmpId, 0) b _))).append (Piece.blocking ?_)).append (Piece.unregister _ _)
    exact e

private theorem to_main {T : Tensor} {tmpId : Nat} {array : NpArray α} {s s1 : Store α} {out : NpArray α} (e : toArray T tmpId array s = .ok (out, s1)) :
    (∃ m seen, toArrayMain T tmpId array seen = .ok (m, out) ∧ Piece m s (withoutTemporary T tmpId s1)) ∧
    ∀ m seen out', toArrayMain T tmpId array seen = .ok (m, out') → seqStore m s = .ok (withoutTemporary T tmpId s1) ∧ (∀ es, Orderly [] es → Orderly [] (m ++ es)) ∧ (∀ e ∈ m, e ≠ .pause) ∧
      ∀ es, ReadsRight (m ++ es) s → ReadsRight es (withoutTemporary T tmpId s1) ∧ out' = out := by
  unfold toArray at e
  split at e
  · rename_i h0
    rw [withoutTemporary, if_pos h0]
    obtain ⟨_, e1, e⟩ := M.bind_eq_ok.1 e
    obtain ⟨h, e2, e⟩ := M.bind_eq_ok.1 e
    obtain ⟨b, e3, e⟩ := M.bind_eq_ok.1 e
    cases e
    constructor
    · refine ⟨_, s h, by rw [toArrayMain, if_pos h0, e1, M.bind_ok, e2, M.bind_ok, e3, M.bind_ok], ?_⟩
      exact Piece.read h s
    · intro m seen out' q
      unfold toArrayMain at q
      rw [if_pos h0, e1, M.bind_ok, e2, M.bind_ok] at q
      obtain ⟨b', q1, q⟩ := M.bind_eq_ok.1 q
      cases q
      refine ⟨rfl, fun es he => by simpa [Orderly] using he, by simp, fun es he => ?_⟩
      have he : seen = s h ∧ ReadsRight es s := he
      rw [he.1, e3] at q1
      cases q1
      exact ⟨he.2, rfl⟩
  · rename_i h0
    rw [withoutTemporary, if_neg h0]
    obtain ⟨_, e1, e⟩ := M.bind_eq_ok.1 e
    obtain ⟨r, e2, e⟩ := M.bind_eq_ok.1 e
    obtain ⟨tasks, e5, e⟩ := M.bind_eq_ok.1 e
    obtain ⟨s', e6, e⟩ := M.bind_eq_ok.1 e
    obtain ⟨h, e3, e⟩ := M.bind_eq_ok.1 e
    obtain ⟨b, e4, e⟩ := M.bind_eq_ok.1 e
    cases e
    obtain ⟨tmp, q1, q2⟩ := M.bind_eq_ok.1 e2
    cases q2
    have P := (Piece.register (tmpId, 0) T.shape.prod s).append (Piece.blocking e6)
    constructor
    · refine ⟨_, s1 h, by rw [toArrayMain, if_neg h0, e1, M.bind_ok, q1, M.bind_ok, e5, M.bind_ok, e3, M.bind_ok, e4, M.bind_ok], ?_⟩
      exact (P.append ((Piece.read h s1).append (Piece.unregister (tmpId, 0) _)))
    · intro m seen out' q
      unfold toArrayMain at q
      rw [if_neg h0, e1, M.bind_ok, q1, M.bind_ok, e5, M.bind_ok, e3, M.bind_ok] at q
      obtain ⟨b', q3, q⟩ := M.bind_eq_ok.1 q
      cases q
      refine ⟨?_, fun es he => ?_, fun e he => ?_, fun es he => ?_⟩
      · have := P.seq
        rw [← List.singleton_append, seqStore_append, this, M.bind_ok]
        rfl
      · rw [← List.singleton_append, List.append_assoc]
        refine P.ord _ ?_
        simpa [Orderly] using he
      · rw [← List.singleton_append, List.mem_append] at he
        rcases he with he | he
        · exact P.pause e he
        · simp only [List.mem_cons, List.not_mem_nil, or_false] at he
          rcases he with rfl | rfl | rfl | rfl <;> simp
      · rw [← List.singleton_append, List.append_assoc] at he
        have he : seen = s1 h ∧ ReadsRight es (s1.put (tmpId, 0) (Buf.undef 0)) := P.reads _ he
        rw [he.1, e4] at q3
        cases q3
        exact ⟨he.2, rfl⟩

private theorem program {ops : List (NpOp α)} {s s' : Store α} {outs : List (NpArray α)} (hs : NpSeq ops s s' outs) : ∀ {outs' : List (NpArray α)} {main : List (RtEvent α)}, NpMain ops outs' main →
    seqStore main s = .ok s' ∧ Orderly [] main ∧ (∀ e ∈ main, e ≠ .pause) ∧ (ReadsRight main s → outs' = outs) := by
  induction hs with
  | nil s =>
    intro outs' main h
    cases h
    exact ⟨rfl, trivial, by simp, fun _ => rfl⟩
  | async e hs ih =>
    intro outs' main h
    cases h with
    | async h =>
      obtain ⟨i1, i2, i3, i4⟩ := ih h
      have P := Piece.async e
      refine ⟨by rw [seqStore_append, P.seq, M.bind_ok, i1], P.ord _ i2, fun e he => ?_, fun hr => i4 (P.reads _ hr)⟩
      rw [List.mem_append] at he
      rcases he with he | he
      · exact P.pause e he
      · exact i3 e he
  | wait hs ih =>
    intro outs' main h
    cases h with
    | wait h =>
      obtain ⟨i1, i2, i3, i4⟩ := ih h
      refine ⟨i1, i2, fun e he => ?_, i4⟩
      rw [List.mem_cons] at he
      rcases he with rfl | he
      · simp
      · exact i3 e he
  | fromArray hsize e hs ih =>
    intro outs' main h
    cases h with
    | fromArray e' h =>
      obtain ⟨i1, i2, i3, i4⟩ := ih h
      obtain ⟨m, q, P⟩ := from_main hsize e
      rw [q] at e'
      cases e'
      refine ⟨by rw [seqStore_append, P.seq, M.bind_ok, i1], P.ord _ i2, fun e he => ?_, fun hr => i4 (P.reads _ hr)⟩
      rw [List.mem_append] at he
      rcases he with he | he
      · exact P.pause e he
      · exact i3 e he
  | toArray e hs ih =>
    intro outs' main h
    cases h with
    | toArray e' h =>
      obtain ⟨i1, i2, i3, i4⟩ := ih h
      obtain ⟨q1, q2, q3, q4⟩ := (to_main e).2 _ _ _ e'
      refine ⟨by rw [seqStore_append, q1, M.bind_ok, i1], q2 _ i2, fun e he => ?_, fun hr => ?_⟩
      · rw [List.mem_append] at he
        rcases he with he | he
        · exact q3 e he
        · exact i3 e he
      · obtain ⟨h1, rfl⟩ := q4 _ hr
        rw [i4 h1]
  | @unregister T ops outs s s1 s' e hs ih =>
    intro outs' main h
    cases h with
    | unregister h =>
      obtain ⟨i1, i2, i3, i4⟩ := ih h
      have P := Piece.tensor T s
      rw [← funext e] at P
      refine ⟨by rw [seqStore_append, P.seq, M.bind_ok, i1], P.ord _ i2, fun e he => ?_, fun hr => i4 (P.reads _ hr)⟩
      rw [List.mem_append] at he
      rcases he with he | he
      · exact P.pause e he
      · exact i3 e he

/-- **Arrays and data.** A program of asynchronous operations, waits, `from_array` and `to_array`, which succeeds if each operation is complete before the next one starts. Whatever the workers do meanwhile: no task
fails, every array which `to_array` fills is the same as without concurrency, and when no task is left all data is the same. -/
theorem C87_program {ops : List (NpOp α)} {s s' : Store α} {outs : List (NpArray α)} (hs : NpSeq ops s s' outs) {outs' : List (NpArray α)} {es : List (RtEvent α)} (hm : NpMain ops outs' (mainOf es))
    {o : M (Rt α)} (h : Rt.Run (.init s) es o) : ∃ r, o = .ok r ∧ outs' = outs ∧ (r.pending = [] → r.store = s') := by
  obtain ⟨h1, h2, -, h4⟩ := program hs hm
  obtain ⟨r, e, hk⟩ := C83_any_moment h1 h2 rfl h
  exact ⟨r, e, h4 (C83_reads h1 h2 rfl h), fun hp => funext fun k => hk k (by simp [hp])⟩

/-- **There are such histories**: the program can be executed to its end, with all tasks finished. -/
theorem C87_history {ops : List (NpOp α)} {s s' : Store α} {outs : List (NpArray α)} (hs : NpSeq ops s s' outs) :
    ∃ es r, NpMain ops outs (mainOf es) ∧ Rt.Run (.init s) es (.ok r) ∧ r.pending = [] ∧ r.store = s' := by
  suffices h : ∃ main, NpMain ops outs main ∧ Piece main s s' by
    obtain ⟨main, h1, h2⟩ := h
    obtain ⟨fs, rfl, h3⟩ := h2.run
    exact ⟨fs, _, h1, h3, rfl, rfl⟩
  induction hs with
  | nil s => exact ⟨[], .nil, .nil s⟩
  | async e hs ih =>
    obtain ⟨main, h1, h2⟩ := ih
    exact ⟨_, .async h1, (Piece.async e).append h2⟩
  | wait hs ih =>
    obtain ⟨main, h1, h2⟩ := ih
    exact ⟨_, .wait h1, (Piece.wait _).append h2⟩
  | fromArray hsize e hs ih =>
    obtain ⟨main, h1, h2⟩ := ih
    obtain ⟨m, q, P⟩ := from_main hsize e
    exact ⟨_, .fromArray q h1, P.append h2⟩
  | toArray e hs ih =>
    obtain ⟨main, h1, h2⟩ := ih
    obtain ⟨m, seen, q, P⟩ := (to_main e).1
    exact ⟨_, .toArray q h1, P.append h2⟩
  | @unregister T ops outs s s1 s' e hs ih =>
    obtain ⟨main, h1, h2⟩ := ih
    have P := Piece.tensor T s
    rw [← funext e] at P
    exact ⟨_, .unregister h1, P.append h2⟩

/-- **The program does not come to a stop**: at any moment the unfinished tasks can be executed, so that every wait and every acquisition of data returns, and workers cannot go on for longer than there are tasks. -/
theorem C87_progress {ops : List (NpOp α)} {s s' : Store α} {outs : List (NpArray α)} (hs : NpSeq ops s s' outs) {outs' : List (NpArray α)} {main rest : List (RtEvent α)}
    (hm : NpMain ops outs' (main ++ rest)) {es : List (RtEvent α)} (he : mainOf es = main) {r : Rt α} (h : Rt.Run (.init s) es (.ok r)) :
    (∃ r', Rt.Run r (List.replicate r.pending.length (.finish 0) ++ [.waitAll]) (.ok r')) ∧
    ∀ fs r', (∀ e ∈ fs, e.isWorker = true) → Rt.Run r fs (.ok r') → r'.pending.length + fs.length = r.pending.length := by
  obtain ⟨h1, h2, h3, -⟩ := program hs hm
  rw [seqStore_append] at h1
  obtain ⟨s1, h1, -⟩ := M.bind_eq_ok.1 h1
  obtain ⟨p1, -, p3⟩ := C83_progress h1 h2.prefix he h (pausedAfter_none fun e he => h3 e (by simp [he]))
  exact ⟨p1, p3⟩

private theorem without_only (T : Tensor) (tmpId : Nat) (s : Store α) : OnlyChanged [tmpId] s (withoutTemporary T tmpId s) := by
  intro h hh
  unfold withoutTemporary
  split
  · rfl
  · rw [Store.put, if_neg]
    rintro rfl
    simp at hh

/-- **Load, compute, read.** A program puts an array into `T`, submits asynchronous operations which compute from `T` with elements `x` the elements `y` of `T'`, and reads `T'`. Whatever the workers do meanwhile, no task
fails and the array which it gets has the elements `y`. -/
theorem C87_exchange {T T' : Tensor} {s : Store α} {x y : List Nat → α} {a b : NpArray α} {tmpId tmpId' : Nat} {ts : List (Task α)} (hT : T.Ready s) (hT' : T'.Ready s) (hid : tmpId ≠ T.id)
    (hid' : tmpId' ≠ T'.id) (hne : tmpId ≠ T'.id) (hTT : T'.id = T.id → T' = T) (ha : a.Fits T) (hx : a.Holds fun I => x (npIndex T I)) (hb : b.Fits T')
    (compute : ∀ s1, T.Ready s1 → T.Holds s1 x → T'.Ready s1 → ∃ s2, runAll ts s1 = .ok s2 ∧ T'.Ready s2 ∧ T'.Holds s2 y)
    {outs : List (NpArray α)} {es : List (RtEvent α)} (hm : NpMain [.fromArray T tmpId a, .async ts, .toArray T' tmpId' b] outs (mainOf es)) {o : M (Rt α)} (h : Rt.Run (.init s) es o) :
    ∃ r out, o = .ok r ∧ outs = [out] ∧ out.Fits T' ∧ out.Holds fun I => y (npIndex T' I) := by
  obtain ⟨s1, e1, x1, r1, c1⟩ := C46_from_array hT hid ha hx
  have r1' : T'.Ready s1 := by
    by_cases he : T'.id = T.id
    · rw [hTT he]
      exact r1
    · exact c1.ready hT' (by simp [he, hne.symm])
  have w := without_only T tmpId s1
  obtain ⟨s2, e2, r2, x2⟩ := compute _ (w.ready r1 (by simpa using hid.symm)) (w.holds x1 (by simpa using hid.symm)) (w.ready r1' (by simpa using hne.symm))
  obtain ⟨out, s3, e3, f3, x3, -, -⟩ := C46_to_array r2 x2 hid' hb
  have hs : NpSeq [.fromArray T tmpId a, .async ts, .toArray T' tmpId' b] s (withoutTemporary T' tmpId' s3) [out] := by
    refine .fromArray (fun h0 => ?_) e1 (.async e2 (.toArray e3 (.nil _)))
    have h0 : T.shape = [] := List.length_eq_zero_iff.1 h0
    have hw := hT.2 0 (by simp [Tensor.ntiles, Tensor.grid, h0])
    rw [hw]
    simp [Tensor.tshapeL, Tensor.tshape, h0, tileShape]
  obtain ⟨r, q1, q2, -⟩ := C87_program hs hm h
  exact ⟨r, out, q1, q2, f3, x3⟩

/-- **Round trip beside the workers.** What a program puts into a tensor it gets back, while tasks which do not write the tensor run. -/
theorem C87_round_trip {T : Tensor} {s : Store α} {x : List Nat → α} {a b : NpArray α} {tmpId tmpId' : Nat} {ts : List (Task α)} (hT : T.Ready s) (hid : tmpId ≠ T.id) (hid' : tmpId' ≠ T.id)
    (ha : a.Fits T) (hx : a.Holds fun I => x (npIndex T I)) (hb : b.Fits T) (hts : ∀ s1, ∃ s2, runAll ts s1 = .ok s2) (hout : ∀ t ∈ ts, ∀ h ∈ t.outs, h.1 ≠ T.id)
    {outs : List (NpArray α)} {es : List (RtEvent α)} (hm : NpMain [.fromArray T tmpId a, .async ts, .toArray T tmpId' b] outs (mainOf es)) {o : M (Rt α)} (h : Rt.Run (.init s) es o) :
    ∃ r out, o = .ok r ∧ outs = [out] ∧ out.Fits T ∧ out.Holds fun I => x (npIndex T I) := by
  refine C87_exchange hT hT hid hid' hid (fun _ => rfl) ha hx hb (fun s1 r1 x1 _ => ?_) hm h
  obtain ⟨s2, e2⟩ := hts s1
  have c : ∀ k : Handle, k.1 = T.id → s2 k = s1 k := fun k hk => runAll_other e2 fun t ht hkt => hout t ht k hkt hk
  refine ⟨s2, e2, ⟨r1.1, fun i hi => by rw [c _ rfl]; exact r1.2 i hi⟩, fun I hI => ?_⟩
  rw [← x1 I hI]
  simp only [Tensor.get]
  rw [c _ rfl]

/-- The hypotheses can be met: a `5×3` tensor with tiles of `2×2`, and a task on other data. -/
example : ∃ (s : Store ℝ) (a b : NpArray ℝ) (ts : List (Task ℝ)) (x : List Nat → ℝ) (out : NpArray ℝ) (es : List (RtEvent ℝ)) (r : Rt ℝ), (⟨0, [5, 3], [2, 2]⟩ : Tensor).Ready s ∧ ts ≠ [] ∧
    a.Holds (fun I => x (npIndex ⟨0, [5, 3], [2, 2]⟩ I)) ∧
    NpMain [.fromArray ⟨0, [5, 3], [2, 2]⟩ 7 a, .async ts, .toArray ⟨0, [5, 3], [2, 2]⟩ 8 b] [out] (mainOf es) ∧ Rt.Run (.init s) es (.ok r) ∧
    out.Fits ⟨0, [5, 3], [2, 2]⟩ ∧ out.data.data (lin [5, 3] [4, 2]) = some 14 := by
  have h := storeOf_spec [((⟨0, [5, 3], [2, 2]⟩ : Tensor), fun I : List Nat => ((I.getD 0 0 : Nat) : ℝ))] (by simp [Tensor.WF]) (by simp)
  simp only [List.forall_mem_cons, List.not_mem_nil, IsEmpty.forall_iff, implies_true, and_true] at h
  have hT := h.1
  generalize storeOf [((⟨0, [5, 3], [2, 2]⟩ : Tensor), fun I : List Nat => ((I.getD 0 0 : Nat) : ℝ))] = s at hT
  let t : Task ℝ := ⟨"t", [], [((3, 0), .W)], fun _ _ => .ok [⟨1, fun _ => some 0⟩]⟩
  have ht : ∀ s1 : Store ℝ, ∃ s2, runAll [t] s1 = .ok s2 := fun s1 => ⟨s1.setAll t.outs [⟨1, fun _ => some 0⟩], by simp [runAll, Task.exec, t, Task.outs, M.bind_ok]⟩
  have ha : (⟨[5, 3], ⟨15, fun k => some (k : ℝ)⟩⟩ : NpArray ℝ).Fits ⟨0, [5, 3], [2, 2]⟩ := by simp [NpArray.Fits]
  have hx : (⟨[5, 3], ⟨15, fun k => some (k : ℝ)⟩⟩ : NpArray ℝ).Holds fun I => ((lin [5, 3] (npIndex ⟨0, [5, 3], [2, 2]⟩ I) : Nat) : ℝ) := by
    intro I hI
    simp [npIndex]
  obtain ⟨s1, e1, x1, r1, -⟩ := C46_from_array (x := fun I => ((lin [5, 3] I : Nat) : ℝ)) (tmpId := 7) hT (by decide) ha hx
  have w := without_only (⟨0, [5, 3], [2, 2]⟩ : Tensor) 7 s1
  replace x1 := w.holds x1 (by decide)
  replace r1 := w.ready r1 (by decide)
  generalize hu : withoutTemporary (⟨0, [5, 3], [2, 2]⟩ : Tensor) 7 s1 = u at x1 r1 w
  obtain ⟨s2, e2⟩ := ht u
  have c : ∀ k : Handle, k.1 = 0 → s2 k = u k := fun k hk => runAll_other e2 fun u hu hku => by
    simp only [List.mem_cons, List.not_mem_nil, or_false] at hu
    subst hu
    simp only [t, Task.outs, List.map_cons, List.map_nil, List.mem_cons, List.not_mem_nil, or_false] at hku
    subst hku
    cases hk
  obtain ⟨out, s3, e3, f3, x3, -, -⟩ := C46_to_array (T := ⟨0, [5, 3], [2, 2]⟩) (tmpId := 8) (s := s2) (a := ⟨[5, 3], ⟨15, fun k => some (k : ℝ)⟩⟩) ⟨r1.1, fun i hi => by rw [c _ rfl]; exact r1.2 i hi⟩
    (fun I hI => by rw [← x1 I hI]; simp only [Tensor.get]; rw [c _ rfl]) (by decide) ha
  obtain ⟨es, r, q1, q2, -, -⟩ := C87_history (.fromArray (by simp [Tensor.ndim]) e1 (.async (by rw [hu]; exact e2) (.toArray e3 (.nil _))))
  refine ⟨s, _, _, [t], fun I => ((lin [5, 3] I : Nat) : ℝ), out, es, r, hT, by simp, hx, q1, q2, f3, ?_⟩
  have := x3 [4, 2] (by rw [f3.1]; simp [InBox])
  rw [f3.1] at this
  rw [if_neg (by simp)] at this
  rw [this]
  simp [npIndex, lin]

end NNTile
