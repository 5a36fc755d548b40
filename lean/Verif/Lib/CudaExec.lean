import Verif.Spec.Cuda
import Verif.Lib.CudaBlock
/-! Single executions of CUDA kernels, for counterexamples. -/
namespace NNTile
variable {α : Type} [FP α] {g : Launch α} {bufs : Nat → Buf α} {s : GState α}

theorem Launch.start_invalid (h : ¬ g.Valid) (t : Tid) : g.start t = .done := by
  unfold Launch.start
  rw [if_neg fun h' => h h'.1]

theorem Launch.init_stuck (h : ¬ g.Valid) {s' : GState α} : ¬ GStep (g.init bufs) s' := by
  have hp : ∀ t, (g.init bufs).prog t = .done := fun t => Launch.start_invalid h t
  intro hs
  cases hs with
  | thread t h1 => rw [hp t] at h1; exact absurd h1 (by simp [Prog.step])
  | barrier b h1 h2 =>
    obtain ⟨t, -, ht⟩ := h2
    rw [hp t] at ht
    exact ht

/-- A launch with an invalid configuration changes nothing. -/
theorem Launch.gives_of_invalid (h : ¬ g.Valid) (srcs : List (Buf α)) (dst : Buf α) : g.Gives srcs dst dst := by
  have hr : ∀ s, g.Reach (taskBufs dst srcs) s → s = g.init (taskBufs dst srcs) := by
    intro s hs
    induction hs with
    | refl => rfl
    | tail _ h2 ih => subst ih; exact absurd h2 (Launch.init_stuck h)
  have hp : ∀ t, (g.init (taskBufs dst srcs)).prog t = .done := fun t => Launch.start_invalid h t
  refine ⟨⟨?_, ?_, ?_, ?_⟩, ?_⟩
  · rintro s hs ⟨t, e, h1⟩
    rw [hr s hs, hp t] at h1
    exact absurd h1 (by simp [Prog.step])
  · rintro s hs ⟨t, u, l, a, b, -, h1, -⟩
    rw [hr s hs, hp t] at h1
    exact absurd h1 (by simp [Prog.access])
  · intro s hs
    rw [hr s hs]
    exact .inl hp
  · intro s hs _
    rw [hr s hs]
    rfl
  · rintro ⟨f, h0, hs⟩
    have := hs 0
    rw [h0] at this
    exact Launch.init_stuck h this

theorem Launch.Reach.refl : g.Reach bufs (g.init bufs) := Relation.ReflTransGen.refl

/-- One access of thread `t`. -/
theorem Launch.Reach.access (h : g.Reach bufs s) {t : Tid} {p q : Prog α} {m : Mem α} (hp : s.prog t = p) (hs : p.step s.mem = some (.ok (m, q))) :
    ∃ s', g.Reach bufs s' ∧ s'.mem = m ∧ s'.prog t = q ∧ ∀ u, u ≠ t → s'.prog u = s.prog u :=
  ⟨_, h.tail (.thread t (hp ▸ hs)), rfl, Function.update_self .., fun _ hu => Function.update_of_ne hu ..⟩

theorem Launch.Reach.rd (h : g.Reach bufs s) {t : Tid} {p : Prog α} {l : Loc} {k : α → Prog α} {v : α} (hp : s.prog t = p) (hs : p = .rd l k) (hm : s.mem.rd l = .ok v) :
    ∃ s', g.Reach bufs s' ∧ s'.mem = s.mem ∧ s'.prog t = k v ∧ ∀ u, u ≠ t → s'.prog u = s.prog u :=
  h.access hp (by
    rw [hs]
    show some (s.mem.rd l >>= _) = _
    rw [hm]
    rfl)

theorem Launch.Reach.wr (h : g.Reach bufs s) {t : Tid} {p : Prog α} {l : Loc} {k : Prog α} {v : α} (hp : s.prog t = p) (hs : p = .wr l v k) (hl : l.2 < (s.mem l.1).size) :
    ∃ s', g.Reach bufs s' ∧ s'.prog t = k ∧ (∀ u, u ≠ t → s'.prog u = s.prog u) ∧ (∀ sp, (s'.mem sp).size = (s.mem sp).size) ∧ s'.mem.rd l = .ok v ∧
      ∀ l', l' ≠ l → s'.mem.rd l' = s.mem.rd l' := by
  obtain ⟨m, hm⟩ := Mem.wr_can hl v
  obtain ⟨s', h1, h2, h3, h4⟩ := h.access hp (m := m) (q := k) (by
    rw [hs]
    show some (s.mem.wr l v >>= _) = _
    rw [hm]
    rfl)
  subst h2
  exact ⟨s', h1, h3, h4, fun sp => Mem.wr_size hm sp, Mem.rd_wr_eq hm, fun l' hl' => Mem.rd_wr_ne hm hl'⟩

theorem Launch.Reach.add (h : g.Reach bufs s) {t : Tid} {p : Prog α} {l : Loc} {k : Prog α} {v x : α} (hp : s.prog t = p) (hs : p = .atomicAdd l v k) (hl : s.mem.rd l = .ok x) :
    ∃ s', g.Reach bufs s' ∧ s'.prog t = k ∧ (∀ u, u ≠ t → s'.prog u = s.prog u) ∧ (∀ sp, (s'.mem sp).size = (s.mem sp).size) ∧ s'.mem.rd l = .ok (x + v) ∧
      ∀ l', l' ≠ l → s'.mem.rd l' = s.mem.rd l' := by
  have hlt : l.2 < (s.mem l.1).size := by
    unfold Mem.rd Buf.rd at hl
    split at hl
    · assumption
    · exact absurd hl (by simp)
  obtain ⟨m, hm⟩ := Mem.wr_can hlt (x + v)
  obtain ⟨s', h1, h2, h3, h4⟩ := h.access hp (m := m) (q := k) (by
    rw [hs]
    show some (s.mem.rd l >>= fun x => s.mem.wr l (x + v) >>= _) = _
    rw [hl]
    show some (s.mem.wr l (x + v) >>= _) = _
    rw [hm]
    rfl)
  subst h2
  exact ⟨s', h1, h3, h4, fun sp => Mem.wr_size hm sp, Mem.rd_wr_eq hm, fun l' hl' => Mem.rd_wr_ne hm hl'⟩

theorem Launch.Reach.raise (h : g.Reach bufs s) {t : Tid} {p : Prog α} {l : Loc} {k : Prog α} {v x : α} (hp : s.prog t = p) (hs : p = .raise l v k) (hl : s.mem.rd l = .ok x) :
    ∃ s', g.Reach bufs s' ∧ s'.mem = s.mem ∧ s'.prog t = (if FP.ltb x v then .raiseWr l v k else k) ∧ ∀ u, u ≠ t → s'.prog u = s.prog u :=
  h.access hp (by
    rw [hs]
    show some (s.mem.rd l >>= _) = _
    rw [hl]
    rfl)

theorem Launch.Reach.raiseWr (h : g.Reach bufs s) {t : Tid} {p : Prog α} {l : Loc} {k : Prog α} {v : α} (hp : s.prog t = p) (hs : p = .raiseWr l v k) (hl : l.2 < (s.mem l.1).size) :
    ∃ s', g.Reach bufs s' ∧ s'.prog t = .raise l v k ∧ (∀ u, u ≠ t → s'.prog u = s.prog u) ∧ (∀ sp, (s'.mem sp).size = (s.mem sp).size) ∧ s'.mem.rd l = .ok v ∧
      ∀ l', l' ≠ l → s'.mem.rd l' = s.mem.rd l' := by
  obtain ⟨m, hm⟩ := Mem.wr_can hl v
  obtain ⟨s', h1, h2, h3, h4⟩ := h.access hp (m := m) (q := .raise l v k) (by
    rw [hs]
    show some (s.mem.wr l v >>= _) = _
    rw [hm]
    rfl)
  subst h2
  exact ⟨s', h1, h3, h4, fun sp => Mem.wr_size hm sp, Mem.rd_wr_eq hm, fun l' hl' => Mem.rd_wr_ne hm hl'⟩

/-- A barrier of block `b`. -/
theorem Launch.Reach.barrier (h : g.Reach bufs s) (b : Dim3) (h1 : ∀ t : Tid, t.blk = b → s.prog t = .done ∨ (s.prog t).waits) (h2 : ∃ t : Tid, t.blk = b ∧ (s.prog t).waits) :
    ∃ s', g.Reach bufs s' ∧ s'.mem = s.mem ∧ ∀ t : Tid, t.blk = b → s'.prog t = (s.prog t).resume :=
  ⟨_, h.tail (.barrier b h1 h2), rfl, fun t ht => if_pos ht⟩

theorem Launch.not_works_of_fails {Post : (Nat → Buf α) → Prop} (h : g.Reach bufs s) (hf : s.Fails) : ¬ g.Works bufs Post := fun hw => hw.defined s h hf
theorem Launch.not_works_of_race {Post : (Nat → Buf α) → Prop} (h : g.Reach bufs s) (hf : s.Race) : ¬ g.Works bufs Post := fun hw => hw.raceFree s h hf

/-- A thread whose program starts with undefined behaviour. -/
theorem Launch.init_fails (hv : g.Valid) {t : Tid} (ht : g.Has t) (hb : g.body t = .ub) : (g.init bufs).Fails := by
  refine ⟨t, .ub "negative index", ?_⟩
  have : (g.init bufs).prog t = .ub := by
    show g.start t = .ub
    unfold Launch.start
    rw [if_pos ⟨hv, ht⟩, hb]
  rw [this]
  rfl

end NNTile
