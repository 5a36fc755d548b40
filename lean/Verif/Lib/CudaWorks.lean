import Verif.Lib.CudaTerm
/-! Grids of blocks with barriers work if every block can be executed phase by phase. -/
namespace NNTile
variable {α : Type} [FP α]

theorem Mem.data_wr_ne {m m' : Mem α} {l l' : Loc} {v : α} (h : m.wr l v = .ok m') (hn : l' ≠ l) : (m' l'.1).data l'.2 = (m l'.1).data l'.2 := by
  obtain ⟨b, hb, rfl⟩ := Mem.wr_ok h
  by_cases h1 : l'.1 = l.1
  · have h2 : l'.2 ≠ l.2 := fun h2 => hn (Prod.ext h1 h2)
    rw [h1, Function.update_self]
    unfold Buf.wr at hb
    split at hb
    · cases hb; simp [h2]
    · cases hb
  · rw [Function.update_of_ne h1]

theorem Agree.of_wr {W G : Loc → Prop} {m m1 : Mem α} {l : Loc} {v : α} (h : m.wr l v = .ok m1) (hW : ¬ W l) (hG : ¬ G l) : Agree W G m m1 :=
  ⟨fun l' hl' => Mem.rd_wr_ne h (by rintro rfl; exact hl'.elim hW hG), fun sp => Mem.wr_size h sp⟩

/-- What holds during the execution. -/
structure BInv (L : Dim3 → List Tid) (W : Dim3 → Loc → Prop) (G : Loc → Prop) (Post : Dim3 → Mem α → Prop) (m0 : Mem α) (s : GState α) : Prop where
  out : ∀ t, t ∉ L t.blk → s.prog t = .done
  blk : ∀ b, ∃ n, BlockOk (L b) (W b) G (Post b) n s.mem s.prog
  frame : ∀ l, (∀ b, ¬ W b l) → (s.mem l.1).data l.2 = (m0 l.1).data l.2
  size : ∀ sp, (s.mem sp).size = (m0 sp).size

section
variable {L : Dim3 → List Tid} (hL : ∀ b, (L b).Nodup) (hLb : ∀ b t, t ∈ L b → t.blk = b) {W : Dim3 → Loc → Prop} {G : Loc → Prop}
  (hW : ∀ b b' l, b ≠ b' → W b l → ¬ W b' l) (hWG : ∀ b l, W b l → ¬ G l) {Post : Dim3 → Mem α → Prop} (hPost : ∀ b m m1, Agree (W b) G m m1 → Post b m → Post b m1) {m0 : Mem α}
include hL hLb hW hWG hPost

theorem BInv.next {s : GState α} (h : BInv L W G Post m0 s) (t : Tid) : s.prog t = .done ∨ (s.prog t).waits ∨
    ∃ m q, (s.prog t).step s.mem = some (.ok (m, q)) ∧ BInv L W G Post m0 ⟨m, Function.update s.prog t q⟩ := by
  by_cases ht : t ∈ L t.blk
  swap
  · exact Or.inl (h.out t ht)
  obtain ⟨n, hb⟩ := h.blk t.blk
  rcases hb.step (hL _) ht with h' | h' | ⟨m1, q, hs, hb', hm⟩
  · exact Or.inl h'
  · exact Or.inr (Or.inl h')
  refine Or.inr (Or.inr ⟨m1, q, hs, ⟨fun u hu => ?_, fun b => ?_, fun l hl => ?_, fun sp => ?_⟩⟩)
  · have : u ≠ t := by rintro rfl; exact hu ht
    simp only [Function.update_of_ne this]
    exact h.out u hu
  · by_cases e : b = t.blk
    · subst e; exact ⟨n, hb'⟩
    · obtain ⟨n', hb2⟩ := h.blk b
      refine ⟨n', ?_⟩
      have h1 : BlockOk (L b) (W b) G (Post b) n' m1 s.prog := by
        rcases hm with rfl | ⟨l, v, hl, hw⟩
        · exact hb2
        · exact hb2.agree (hL b) (hPost b) (Agree.of_wr hw (fun h => hW _ _ l e h hl) (hWG _ l hl))
      refine h1.congr fun u hu => ?_
      dsimp only
      rw [Function.update_of_ne]
      rintro rfl
      exact e (hLb b u hu).symm
  · rcases hm with rfl | ⟨l', v, hl', hw⟩
    · exact h.frame l hl
    · simp only
      rw [Mem.data_wr_ne hw (by rintro rfl; exact hl _ hl'), h.frame l hl]
  · rcases hm with rfl | ⟨l', v, hl', hw⟩
    · exact h.size sp
    · simp only
      rw [Mem.wr_size hw, h.size]

theorem BInv.step {s s' : GState α} (h : BInv L W G Post m0 s) (hs : GStep s s') : BInv L W G Post m0 s' := by
  cases hs with
  | thread t hst =>
    rcases BInv.next hL hLb hW hWG hPost h t with hd | hd | ⟨m, q, hst', hi⟩
    · rw [hd] at hst; cases hst
    · revert hd hst
      generalize s.prog t = p
      intro hst hd
      cases p with
      | sync k => simp [Prog.step] at hst
      | _ => exact hd.elim
    · rw [hst'] at hst; cases hst; exact hi
  | barrier b hb hb' =>
    refine ⟨fun t ht => ?_, fun b' => ?_, h.frame, h.size⟩
    · simp only [h.out t ht]
      split <;> rfl
    · obtain ⟨n, hn⟩ := h.blk b'
      by_cases e : b' = b
      · subst e
        have hw : ∃ t ∈ L b', (s.prog t).waits := by
          obtain ⟨t, ht, hw⟩ := hb'
          refine ⟨t, ?_, hw⟩
          by_contra hn
          rw [h.out t (by rw [ht]; exact hn)] at hw
          exact hw
        obtain ⟨n', hn'⟩ := hn.barrier (fun t ht => hb t (hLb b' t ht)) hw
        refine ⟨n', hn'.congr fun t ht => ?_⟩
        simp only [if_pos (hLb b' t ht)]
      · refine ⟨n, hn.congr fun t ht => ?_⟩
        have : t.blk ≠ b := by rw [hLb b' t ht]; exact e
        simp only [if_neg this]

theorem BInv.reach {s s' : GState α} (h : BInv L W G Post m0 s) (hs : Relation.ReflTransGen GStep s s') : BInv L W G Post m0 s' := by
  induction hs with
  | refl => exact h
  | tail _ hs ih => exact BInv.step hL hLb hW hWG hPost ih hs

omit hPost hL hLb in
theorem BInv.not_race {s : GState α} (h : BInv L W G Post m0 s) : ¬ s.Race := by
  rintro ⟨t, u, l, a, b, hne, ht, hu, hab⟩
  have htL : t ∈ L t.blk := by
    by_contra hn
    rw [h.out t hn] at ht
    simp [Prog.access] at ht
  have huL : u ∈ L u.blk := by
    by_contra hn
    rw [h.out u hn] at hu
    simp [Prog.access] at hu
  obtain ⟨n, hb⟩ := h.blk t.blk
  by_cases e : t.blk = u.blk
  · rw [← e] at huL
    exact hab (hb.not_race htL huL hne ht hu)
  · obtain ⟨n', hb'⟩ := h.blk u.blk
    rcases hb.access htL ht with h1 | ⟨h1, rfl⟩ <;> rcases hb'.access huL hu with h2 | ⟨h2, rfl⟩
    · exact hW _ _ l e h1 h2
    · exact hWG _ l h1 h2
    · exact hWG _ l h2 h1
    · simp at hab

end

/-- All interleavings of a grid of blocks with barriers work, if every block can be executed phase by phase. -/
theorem Launch.works_of_blocks (g : Launch α) (bufs : Nat → Buf α) (L : Dim3 → List Tid) (hL : ∀ b, (L b).Nodup) (hLb : ∀ b t, t ∈ L b → t.blk = b)
    (hcov : ∀ t, t ∉ L t.blk → g.start t = .done) (all : List Tid) (hall : ∀ b, ∀ t ∈ L b, t ∈ all) (W : Dim3 → Loc → Prop) (G : Loc → Prop)
    (hW : ∀ b b' l, b ≠ b' → W b l → ¬ W b' l) (hWG : ∀ b l, W b l → ¬ G l) (Post : Dim3 → Mem α → Prop) (hPost : ∀ b m m1, Agree (W b) G m m1 → Post b m → Post b m1)
    (n : Dim3 → Nat) (h : ∀ b, BlockOk (L b) (W b) G (Post b) (n b) (g.mem bufs) g.start) :
    g.Works bufs fun bs => ∃ m : Mem α, (bs = fun b => m (.glob b)) ∧ (∀ b, Post b m) ∧ (∀ l, (∀ b, ¬ W b l) → (m l.1).data l.2 = (g.mem bufs l.1).data l.2) ∧
      ∀ sp, (m sp).size = (g.mem bufs sp).size := by
  have hi : BInv L W G Post (g.mem bufs) (g.init bufs) := ⟨hcov, fun b => ⟨n b, h b⟩, fun _ _ => rfl, fun _ => rfl⟩
  have hR : ∀ s, g.Reach bufs s → BInv L W G Post (g.mem bufs) s := fun s h => BInv.reach hL hLb hW hWG hPost hi h
  refine ⟨⟨?_, fun s h => BInv.not_race hW hWG (hR s h), fun s h => ?_, fun s h hF => ?_⟩, ?_⟩
  · rintro s h ⟨t, e, he⟩
    rcases BInv.next hL hLb hW hWG hPost (hR s h) t with hd | hd | ⟨m, q, hst, _⟩
    · rw [hd] at he; cases he
    · revert hd he
      generalize s.prog t = p
      intro he hd
      cases p with
      | sync k => simp [Prog.step] at he
      | _ => exact hd.elim
    · rw [hst] at he; cases he
  · by_cases hF : s.Final
    · exact Or.inl hF
    · right
      unfold GState.Final at hF
      push Not at hF
      obtain ⟨t, ht⟩ := hF
      by_cases hall : ∀ u : Tid, u.blk = t.blk → s.prog u = .done ∨ (s.prog u).waits
      · exact ⟨_, .barrier t.blk hall ⟨t, rfl, (hall t rfl).resolve_left ht⟩⟩
      · push Not at hall
        obtain ⟨u, _, h1, h2⟩ := hall
        rcases BInv.next hL hLb hW hWG hPost (hR s h) u with hd | hd | ⟨m, q, hst, _⟩
        · exact (h1 hd).elim
        · exact (h2 hd).elim
        · exact ⟨_, .thread u hst⟩
  · have hi := hR s h
    refine ⟨s.mem, rfl, fun b => ?_, hi.frame, hi.size⟩
    obtain ⟨n, hb⟩ := hi.blk b
    exact hb.final fun t _ => hF t
  · rintro ⟨f, f0, fs⟩
    have hreach : ∀ n, g.Reach bufs (f n) := by
      intro n
      induction n with
      | zero => rw [f0]; exact .refl
      | succ n ih => exact ih.tail (fs n)
    refine GStep.terminates_raise all f (fun n t ht => (hR _ (hreach n)).out t fun h => ht (hall _ t h)) fs fun n t hp => ?_
    have hi := hR _ (hreach n)
    obtain ⟨k, hb⟩ := hi.blk t.blk
    refine hb.ord (t := t) ?_ hp
    by_contra hn
    rw [hi.out t hn] at hp
    exact hp trivial

end NNTile
