import Verif.Lib.CudaBlock
import Mathlib.Order.OrderIsoNat
/-! Grids of blocks with barriers. -/
namespace NNTile
variable {α : Type} [FP α]

/-- The block writes only `W` and reads only `W` and `G`. -/
structure Cls.In (c : Cls α) (W G : Loc → Prop) : Prop where
  own : ∀ t l, c.own t l → W l
  acc : ∀ l, c.acc l → W l
  raised : ∀ l, c.raised l → W l
  free : ∀ l, c.free l → W l ∨ G l

/-- The threads `L` of a block with programs `P` can be executed phase by phase, `n` phases. -/
def BlockOk (L : List Tid) (W G : Loc → Prop) (Post : Mem α → Prop) : Nat → Mem α → (Tid → Prog α) → Prop
  | 0, m, P => (∀ t ∈ L, P t = .done) ∧ Post m
  | n+1, m, P => ∃ (c : Cls α) (m0 : Mem α), c.Ok ∧ c.In W G ∧ (∀ t ∈ L, (P t).FootB c m0 t) ∧ (∀ l, c.free l → m.rd l = m0.rd l) ∧
      (∀ l, c.raised l → ∃ x, m.rd l = .ok x ∧ (x = c.base l ∨ FP.ltb (c.base l) x = true)) ∧
      wpSeq c.base (fun m' P' => BlockOk L W G Post n m' fun t => (P' t).resume) L P m

theorem wpSeq_congr {base : Loc → α} {Q : Mem α → (Tid → Prog α) → Prop} (K : List Tid) (hQ : ∀ m P P', (∀ t ∈ K, P t = P' t) → Q m P → Q m P') :
    ∀ (L : List Tid), (∀ t ∈ L, t ∈ K) → ∀ (P P' : Tid → Prog α) m, (∀ t ∈ K, P t = P' t) → wpSeq base Q L P m → wpSeq base Q L P' m := by
  intro L
  induction L with
  | nil => intro _ P P' m h hw; exact hQ m P P' h hw
  | cons t L ih =>
    intro hL P P' m h hw
    simp only [wpSeq] at hw ⊢
    rw [← h t (hL t (by simp))]
    refine Prog.wp_mono (fun m' p' hw => ?_) _ _ hw
    refine ih (fun u hu => hL u (by simp [hu])) _ _ m' (fun u hu => ?_) hw
    by_cases e : u = t
    · subst e; simp
    · simp [Function.update_of_ne e, h u hu]

theorem BlockOk.congr {L : List Tid} {W G : Loc → Prop} {Post : Mem α → Prop} : ∀ {n : Nat} {m : Mem α} {P P' : Tid → Prog α}, (∀ t ∈ L, P t = P' t) →
    BlockOk L W G Post n m P → BlockOk L W G Post n m P' := by
  intro n
  induction n with
  | zero => rintro m P P' h ⟨h1, h2⟩; exact ⟨fun t ht => by rw [← h t ht, h1 t ht], h2⟩
  | succ n ih =>
    rintro m P P' h ⟨c, m0, h1, h2, h3, h4, h5, h6⟩
    refine ⟨c, m0, h1, h2, fun t ht => by rw [← h t ht]; exact h3 t ht, h4, h5, ?_⟩
    refine wpSeq_congr L (fun m P P' hP hw => ?_) L (fun _ h => h) P P' m h h6
    exact ih (fun t ht => by rw [hP t ht]) hw

/-- Nothing changed in `W` and `G`. -/
def Agree (W G : Loc → Prop) (m m1 : Mem α) : Prop := (∀ l, W l ∨ G l → m1.rd l = m.rd l) ∧ ∀ sp, (m1 sp).size = (m sp).size

theorem Agree.wr {W G : Loc → Prop} {m m1 m' : Mem α} {l : Loc} {v : α} (h : Agree W G m m1) (hw : m.wr l v = .ok m') : ∃ m1', m1.wr l v = .ok m1' ∧ Agree W G m' m1' := by
  obtain ⟨m1', h1⟩ := Mem.wr_can (m := m1) (l := l) (by rw [h.2]; exact Mem.wr_lt hw) v
  refine ⟨m1', h1, fun l' hl' => ?_, fun sp => by rw [Mem.wr_size h1, h.2, Mem.wr_size hw]⟩
  by_cases e : l' = l
  · subst e; rw [Mem.rd_wr_eq h1, Mem.rd_wr_eq hw]
  · rw [Mem.rd_wr_ne h1 e, Mem.rd_wr_ne hw e, h.1 l' hl']

theorem Agree.outside {W G : Loc → Prop} {c : Cls α} (hi : c.In W G) (t : Tid) : Outside c t (Agree W G) := by
  refine ⟨fun m m1 l h hl => h.1 l ?_, fun m m1 m' l v h _ hw => h.wr hw, fun m m1 m' l x v h hl hx hw => ?_, fun m m1 l x v h hl hx => ?_⟩
  · exact hl.elim (fun h => Or.inl (hi.own t l h)) (hi.free l)
  · obtain ⟨m1', h1, h2⟩ := h.wr hw
    exact ⟨x, m1', by rw [h.1 l (Or.inl (hl.elim (hi.own t l) (hi.acc l))), hx], h1, h2⟩
  · exact ⟨x, by rw [h.1 l (Or.inl (hi.raised l hl)), hx], fun _ m' hw => h.wr hw, fun h h' => (h' h).elim⟩

theorem BlockOk.agree {L : List Tid} (hL : L.Nodup) {W G : Loc → Prop} {Post : Mem α → Prop} (hPost : ∀ m m1, Agree W G m m1 → Post m → Post m1) :
    ∀ {n : Nat} {m m1 : Mem α} {P : Tid → Prog α}, Agree W G m m1 → BlockOk L W G Post n m P → BlockOk L W G Post n m1 P := by
  intro n
  induction n with
  | zero => rintro m m1 P h ⟨h1, h2⟩; exact ⟨h1, hPost m m1 h h2⟩
  | succ n ih =>
    rintro m m1 P h ⟨c, m0, h1, h2, h3, h4, h5, h6⟩
    refine ⟨c, m0, h1, h2, h3, fun l hl => by rw [h.1 l (h2.free l hl), h4 l hl], fun l hl => by rw [h.1 l (Or.inl (h2.raised l hl))]; exact h5 l hl, ?_⟩
    have key : ∀ (K : List Tid) (P : Tid → Prog α), K.Nodup → (∀ t ∈ K, (P t).FootB c m0 t) → ∀ m m1, Agree W G m m1 → (∀ l, c.free l → m.rd l = m0.rd l) →
        wpSeq c.base (fun m' P' => BlockOk L W G Post n m' fun t => (P' t).resume) K P m → wpSeq c.base (fun m' P' => BlockOk L W G Post n m' fun t => (P' t).resume) K P m1 := by
      intro K
      induction K with
      | nil => intro P _ _ m m1 h _ hw; exact ih h hw
      | cons t K ihK =>
        intro P hn hf m m1 h hm hw
        have hn' := List.nodup_cons.1 hn
        refine Prog.wp_outside h1 (Agree.outside h2 t) (fun m m1 p' hop hm hw => ?_) (P t) (hf t (by simp)) m m1 h hm hw
        refine ihK _ hn'.2 (fun u hu => ?_) m m1 hop hm hw
        rw [Function.update_of_ne (by rintro rfl; exact hn'.1 hu)]
        exact hf u (by simp [hu])
    exact key L P hL h3 m m1 h h4 h6

theorem BlockOk.step {L : List Tid} (hL : L.Nodup) {W G : Loc → Prop} {Post : Mem α → Prop} {n : Nat} {m : Mem α} {P : Tid → Prog α} (h : BlockOk L W G Post n m P)
    {t : Tid} (ht : t ∈ L) : P t = .done ∨ (P t).waits ∨ ∃ m1 q, (P t).step m = some (.ok (m1, q)) ∧ BlockOk L W G Post n m1 (Function.update P t q) ∧
      (m1 = m ∨ ∃ l v, W l ∧ m.wr l v = .ok m1) := by
  cases n with
  | zero => exact Or.inl (h.1 t ht)
  | succ n =>
    obtain ⟨c, m0, h1, h2, h3, h4, h5, h6⟩ := h
    have hft := h3 t ht
    obtain ⟨Q', m', hp, e1, e2, e3⟩ := wpSeq_peek h1 L P hL ht h3 m h4 h6
    have key : ∀ (op : Mem α → Mem α → Prop) (m1 : Mem α) (q : Prog α), op m m1 → (∀ Q m m1, op m m1 → (P t).wp c.base Q m → q.wp c.base Q m1) → (∀ u, u ≠ t → Outside c u op) →
        q.FootB c m0 t → (m1 = m ∨ ∃ l v, m.wr l v = .ok m1 ∧ (c.own t l ∨ c.acc l ∨ (c.raised l ∧ FP.ltb (c.base l) v = true))) →
        BlockOk L W G Post (n+1) m1 (Function.update P t q) ∧ (m1 = m ∨ ∃ l v, W l ∧ m.wr l v = .ok m1) := by
      intro op m1 q hop hq ho hf hm
      refine ⟨⟨c, m0, h1, h2, fun u hu => ?_, fun l hl => ?_, fun l hl => ?_, wpSeq_op h1 hq ho L P hL ht rfl h3 m m1 hop h4 h6⟩, ?_⟩
      · by_cases e : u = t
        · subst e; simpa using hf
        · simpa [Function.update_of_ne e] using h3 u hu
      · rcases hm with rfl | ⟨l', v, hw, hl'⟩
        · exact h4 l hl
        · have : l ≠ l' := by
            rintro rfl
            rcases hl' with h | h | h
            · exact h1.own_free t l h hl
            · exact h1.acc_free l h hl
            · exact h1.raised_free l h.1 hl
          rw [Mem.rd_wr_ne hw this, h4 l hl]
      · rcases hm with rfl | ⟨l', v, hw, hl'⟩
        · exact h5 l hl
        · by_cases e : l = l'
          · subst e
            refine ⟨v, Mem.rd_wr_eq hw, Or.inr ?_⟩
            rcases hl' with h | h | h
            · exact (h1.own_raised t l h hl).elim
            · exact (h1.acc_raised l h hl).elim
            · exact h.2
          · rw [Mem.rd_wr_ne hw e]; exact h5 l hl
      · rcases hm with hm | ⟨l', v, hw, hl'⟩
        · exact Or.inl hm
        · refine Or.inr ⟨l', v, ?_, hw⟩
          rcases hl' with h | h | h
          · exact h2.own t l' h
          · exact h2.acc l' h
          · exact h2.raised l' h.1
    revert hft hp key
    generalize P t = p
    intro hft hp key
    cases p with
    | done => exact Or.inl rfl
    | sync k => exact Or.inr (Or.inl trivial)
    | rd l k =>
      refine Or.inr (Or.inr ?_)
      obtain ⟨v, hv, hw⟩ := hp
      have hl : c.own t l ∨ c.free l := hft.imp And.left And.left
      rw [e1 l hl] at hv
      refine ⟨m, k v, by simp [Prog.step, hv, M.bind_ok], ?_⟩
      refine key (fun m m1 => m1 = m ∧ m.rd l = .ok v) m (k v) ⟨rfl, hv⟩ ?_ (fun u hu => outside_rd h1 hu hl v) ?_ (Or.inl rfl)
      · rintro Q m _ ⟨rfl, hv⟩ ⟨w, hw, h⟩
        rw [hv] at hw
        cases hw
        exact h
      · rcases hft with hf | hf
        · exact hf.2 v
        · exact hf.2 v (by rw [← h4 l hf.1, hv])
    | wr l v k =>
      refine Or.inr (Or.inr ?_)
      obtain ⟨m2, hv, hw⟩ := hp
      obtain ⟨m1, hm1⟩ := Mem.wr_can (m := m) (l := l) (by rw [← e2]; exact Mem.wr_lt hv) v
      refine ⟨m1, k, by simp [Prog.step, hm1, M.bind_ok], ?_⟩
      refine key (fun m m1 => m.wr l v = .ok m1) m1 k hm1 ?_ (fun u hu => outside_wr h1 hu hft.1 v) hft.2 (Or.inr ⟨l, v, hm1, Or.inl hft.1⟩)
      rintro Q m m1 hop ⟨m', hm', h⟩
      rw [hop] at hm'
      cases hm'
      exact h
    | atomicAdd l v k =>
      refine Or.inr (Or.inr ?_)
      obtain ⟨x', m2, hx', hv, hw⟩ := hp
      obtain ⟨x, hx⟩ := e3 l hft.1 ⟨x', hx'⟩
      obtain ⟨m1, hm1⟩ := Mem.wr_can (m := m) (l := l) (by rw [← e2]; exact Mem.wr_lt hv) (x + v)
      refine ⟨m1, k, by simp [Prog.step, hx, hm1, M.bind_ok], ?_⟩
      refine key (fun m m1 => ∃ x, m.rd l = .ok x ∧ m.wr l (x + v) = .ok m1) m1 k ⟨x, hx, hm1⟩ ?_ (fun u hu => outside_add h1 hu hft.1 v) hft.2
        (Or.inr ⟨l, _, hm1, hft.1.imp id Or.inl⟩)
      rintro Q m m1 ⟨y, hy, hop⟩ ⟨z, m', hz, hm', h⟩
      rw [hy] at hz
      cases hz
      rw [hop] at hm'
      cases hm'
      exact h
    | raise l v k =>
      refine Or.inr (Or.inr ?_)
      obtain ⟨x, hx, hxb⟩ := h5 l hft.1
      have ord := h1.ord l hft.1
      cases hlt : FP.ltb x v with
      | true =>
        have hb : FP.ltb (c.base l) v = true := by
          rcases hxb with rfl | hxb
          · exact hlt
          · exact ord.2 _ _ _ hxb hlt
        refine ⟨m, .raiseWr l v k, by simp [Prog.step, hx, hlt, M.bind_ok], ?_⟩
        refine key (fun m m1 => m1 = m) m _ rfl ?_ (fun u _ => outside_id) ⟨hft.1, hb, hft.2⟩ (Or.inl rfl)
        rintro Q m _ rfl h
        exact h
      | false =>
        refine ⟨m, k, by simp [Prog.step, hx, hlt, M.bind_ok], ?_⟩
        refine key (fun m m1 => m1 = m ∧ ((∃ x, m.rd l = .ok x ∧ x ≠ c.base l) ∨ FP.ltb (c.base l) v = false)) m k ⟨rfl, ?_⟩ ?_ (fun u _ => outside_skip h1 hft.1 _) hft.2 (Or.inl rfl)
        · rcases hxb with rfl | hxb
          · exact Or.inr hlt
          · refine Or.inl ⟨x, hx, ?_⟩
            rintro e
            rw [e, ord.1] at hxb
            cases hxb
        · rintro Q m _ ⟨rfl, h⟩ ⟨y, hy, _, h'⟩
          refine h' (h.imp ?_ id)
          rintro ⟨z, hz, hne⟩
          rw [hy] at hz
          cases hz
          exact hne
    | raiseWr l v k =>
      refine Or.inr (Or.inr ?_)
      obtain ⟨x, _, hw, _⟩ := hp
      obtain ⟨m2, hv, _⟩ := hw hft.2.1
      obtain ⟨m1, hm1⟩ := Mem.wr_can (m := m) (l := l) (by rw [← e2]; exact Mem.wr_lt hv) v
      refine ⟨m1, .raise l v k, by simp [Prog.step, hm1, M.bind_ok], ?_⟩
      refine key (fun m m1 => m.wr l v = .ok m1 ∨ (m1 = m ∧ ∃ x, m.rd l = .ok x ∧ x ≠ c.base l)) m1 _ (Or.inl hm1) ?_ (fun u _ => outside_raise h1 hft.1 hft.2.1) ⟨hft.1, hft.2.2⟩
        (Or.inr ⟨l, v, hm1, Or.inr (Or.inr ⟨hft.1, hft.2.1⟩)⟩)
      rintro Q m m1 (hop | ⟨rfl, _⟩) hp'
      · obtain ⟨y, hy, h', _⟩ := hp'
        obtain ⟨m', hm', hk⟩ := h' hft.2.1
        rw [hop] at hm'
        cases hm'
        obtain ⟨m3, h6, h7⟩ := Mem.wr_any hop v
        rw [hop] at h6
        cases h6
        exact ⟨v, Mem.rd_wr_eq hop, fun _ => ⟨m1, h7, hk⟩, fun _ => hk⟩
      · exact hp'
    | ub => exact hft.elim

theorem wpSeq_stuck {base : Loc → α} {Q : Mem α → (Tid → Prog α) → Prop} : ∀ (L : List Tid) (P : Tid → Prog α) m, (∀ t ∈ L, P t = .done ∨ (P t).waits) → wpSeq base Q L P m → Q m P := by
  intro L
  induction L with
  | nil => intro P m _ hw; exact hw
  | cons t L ih =>
    intro P m h hw
    have e : wpSeq base Q L (Function.update P t (P t)) m := by
      rcases h t (by simp) with h | h
      · rw [h]; simp only [wpSeq, h] at hw; exact hw
      · revert hw h
        simp only [wpSeq]
        generalize hp : P t = p
        cases p with
        | sync k => intro hw _; exact hw
        | _ => intro _ h; exact h.elim
    rw [Function.update_eq_self] at e
    exact ih P m (fun u hu => h u (by simp [hu])) e

theorem BlockOk.barrier {L : List Tid} {W G : Loc → Prop} {Post : Mem α → Prop} {n : Nat} {m : Mem α} {P : Tid → Prog α} (h : BlockOk L W G Post n m P)
    (hs : ∀ t ∈ L, P t = .done ∨ (P t).waits) (hw : ∃ t ∈ L, (P t).waits) : ∃ n', BlockOk L W G Post n' m fun t => (P t).resume := by
  cases n with
  | zero =>
    obtain ⟨t, ht, hw⟩ := hw
    rw [h.1 t ht] at hw
    exact hw.elim
  | succ n =>
    obtain ⟨c, m0, h1, h2, h3, h4, h5, h6⟩ := h
    exact ⟨n, wpSeq_stuck L P m hs h6⟩

theorem BlockOk.final {L : List Tid} {W G : Loc → Prop} {Post : Mem α → Prop} : ∀ {n : Nat} {m : Mem α} {P : Tid → Prog α}, BlockOk L W G Post n m P →
    (∀ t ∈ L, P t = .done) → Post m := by
  intro n
  induction n with
  | zero => intro m P h _; exact h.2
  | succ n ih =>
    rintro m P ⟨c, m0, h1, h2, h3, h4, h5, h6⟩ hd
    have h7 := wpSeq_stuck L P m (fun t ht => Or.inl (hd t ht)) h6
    exact ih h7 fun t ht => by rw [hd t ht]; rfl

/-- Classes of accesses. -/
theorem Prog.FootB.access {c : Cls α} {m0 : Mem α} {t : Tid} {p : Prog α} (h : p.FootB c m0 t) {l : Loc} {a : Access} (ha : p.access = some (l, a)) :
    c.own t l ∨ (c.free l ∧ a = .read) ∨ (c.acc l ∧ a = .atomic) ∨ (c.raised l ∧ a = .volatile) := by
  cases p with
  | rd l' k =>
    simp only [Prog.access, Option.some.injEq, Prod.mk.injEq] at ha
    obtain ⟨rfl, rfl⟩ := ha
    exact h.elim (fun h => Or.inl h.1) fun h => Or.inr (Or.inl ⟨h.1, rfl⟩)
  | wr l' v k =>
    simp only [Prog.access, Option.some.injEq, Prod.mk.injEq] at ha
    obtain ⟨rfl, rfl⟩ := ha
    exact Or.inl h.1
  | atomicAdd l' v k =>
    simp only [Prog.access, Option.some.injEq, Prod.mk.injEq] at ha
    obtain ⟨rfl, rfl⟩ := ha
    exact h.1.elim Or.inl fun h => Or.inr (Or.inr (Or.inl ⟨h, rfl⟩))
  | raise l' v k =>
    simp only [Prog.access, Option.some.injEq, Prod.mk.injEq] at ha
    obtain ⟨rfl, rfl⟩ := ha
    exact Or.inr (Or.inr (Or.inr ⟨h.1, rfl⟩))
  | raiseWr l' v k =>
    simp only [Prog.access, Option.some.injEq, Prod.mk.injEq] at ha
    obtain ⟨rfl, rfl⟩ := ha
    exact Or.inr (Or.inr (Or.inr ⟨h.1, rfl⟩))
  | _ => simp [Prog.access] at ha

theorem BlockOk.access {L : List Tid} {W G : Loc → Prop} {Post : Mem α → Prop} {n : Nat} {m : Mem α} {P : Tid → Prog α} (h : BlockOk L W G Post n m P) {t : Tid} (ht : t ∈ L)
    {l : Loc} {a : Access} (ha : (P t).access = some (l, a)) : W l ∨ (G l ∧ a = .read) := by
  cases n with
  | zero => rw [h.1 t ht] at ha; simp [Prog.access] at ha
  | succ n =>
    obtain ⟨c, m0, h1, h2, h3, h4, h5, h6⟩ := h
    rcases (h3 t ht).access ha with h | ⟨h, rfl⟩ | ⟨h, rfl⟩ | ⟨h, rfl⟩
    · exact Or.inl (h2.own t l h)
    · exact (h2.free l h).imp id fun h => ⟨h, rfl⟩
    · exact Or.inl (h2.acc l h)
    · exact Or.inl (h2.raised l h)

theorem BlockOk.not_race {L : List Tid} {W G : Loc → Prop} {Post : Mem α → Prop} {n : Nat} {m : Mem α} {P : Tid → Prog α} (h : BlockOk L W G Post n m P) {t u : Tid}
    (ht : t ∈ L) (hu : u ∈ L) (hne : t ≠ u) {l : Loc} {a b : Access} (ha : (P t).access = some (l, a)) (hb : (P u).access = some (l, b)) : a = b ∧ a ≠ .write := by
  cases n with
  | zero => rw [h.1 t ht] at ha; simp [Prog.access] at ha
  | succ n =>
    obtain ⟨c, m0, h1, h2, h3, h4, h5, h6⟩ := h
    rcases (h3 t ht).access ha with h | ⟨h, rfl⟩ | ⟨h, rfl⟩ | ⟨h, rfl⟩ <;> rcases (h3 u hu).access hb with h' | ⟨h', rfl⟩ | ⟨h', rfl⟩ | ⟨h', rfl⟩
    · exact (h1.disj t u l hne h h').elim
    · exact (h1.own_free t l h h').elim
    · exact (h1.own_acc t l h h').elim
    · exact (h1.own_raised t l h h').elim
    · exact (h1.own_free u l h' h).elim
    · simp
    · exact (h1.acc_free l h' h).elim
    · exact (h1.raised_free l h' h).elim
    · exact (h1.own_acc u l h' h).elim
    · exact (h1.acc_free l h h').elim
    · simp
    · exact (h1.acc_raised l h h').elim
    · exact (h1.own_raised u l h' h).elim
    · exact (h1.raised_free l h h').elim
    · exact (h1.acc_raised l h' h).elim
    · simp

theorem BlockOk.ord {L : List Tid} {W G : Loc → Prop} {Post : Mem α → Prop} {n : Nat} {m : Mem α} {P : Tid → Prog α} (h : BlockOk L W G Post n m P) {t : Tid} (ht : t ∈ L)
    (hn : ¬ (P t).Plain) : (∀ a : α, FP.ltb a a = false) ∧ ∀ x y z : α, FP.ltb x y = true → FP.ltb y z = true → FP.ltb x z = true := by
  cases n with
  | zero => rw [h.1 t ht] at hn; exact (hn trivial).elim
  | succ n =>
    obtain ⟨c, m0, h1, h2, h3, h4, h5, h6⟩ := h
    have hf := h3 t ht
    revert hn hf
    cases P t <;> intro hn hf
    case raise => exact h1.ord _ hf.1
    case raiseWr => exact h1.ord _ hf.1
    all_goals exact (hn trivial).elim

end NNTile
