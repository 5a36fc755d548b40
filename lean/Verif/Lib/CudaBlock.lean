import Verif.Lib.CudaRun
/-! Blocks of threads with barriers. Between two barriers every location belongs to one thread, or is only read, or is only accessed by atomic additions, or only by `raise` loops. Then every
interleaving is covered by a sequential execution of the threads (with a choice for `raise`). -/
namespace NNTile
variable {α : Type} [FP α]

theorem Mem.wr_can {m : Mem α} {l : Loc} (h : l.2 < (m l.1).size) (v : α) : ∃ m', m.wr l v = .ok m' := by
  unfold Mem.wr Buf.wr
  rw [if_pos h]
  exact ⟨_, rfl⟩

theorem Mem.wr_lt {m m' : Mem α} {l : Loc} {v : α} (h : m.wr l v = .ok m') : l.2 < (m l.1).size := by
  obtain ⟨b, hb, _⟩ := Mem.wr_ok h
  unfold Buf.wr at hb
  split at hb
  · assumption
  · cases hb

theorem Mem.wr_size {m m' : Mem α} {l : Loc} {v : α} (h : m.wr l v = .ok m') (sp : Space) : (m' sp).size = (m sp).size := by
  obtain ⟨b, hb, rfl⟩ := Mem.wr_ok h
  unfold Buf.wr at hb
  split at hb
  swap
  · cases hb
  cases hb
  by_cases e : sp = l.1
  · subst e; simp
  · rw [Function.update_of_ne e]

/-- Classes of locations of a block in a phase (between two barriers). `base`: contents of the locations for `raise` loops at the start of the phase. -/
structure Cls (α : Type) where
  own : Tid → Loc → Prop
  free : Loc → Prop
  acc : Loc → Prop
  raised : Loc → Prop
  base : Loc → α

structure Cls.Ok (c : Cls α) : Prop where
  disj : ∀ i j l, i ≠ j → c.own i l → ¬ c.own j l
  own_free : ∀ i l, c.own i l → ¬ c.free l
  own_acc : ∀ i l, c.own i l → ¬ c.acc l
  own_raised : ∀ i l, c.own i l → ¬ c.raised l
  acc_free : ∀ l, c.acc l → ¬ c.free l
  acc_raised : ∀ l, c.acc l → ¬ c.raised l
  raised_free : ∀ l, c.raised l → ¬ c.free l
  comm : ∀ l, c.acc l → ∀ x v w : α, x + v + w = x + w + v
  ord : ∀ l, c.raised l → (∀ a : α, FP.ltb a a = false) ∧ ∀ x y z : α, FP.ltb x y = true → FP.ltb y z = true → FP.ltb x z = true

/-- What a thread may access until the next barrier. -/
def Prog.FootB (c : Cls α) (m0 : Mem α) (t : Tid) : Prog α → Prop
  | .done => True
  | .sync _ => True
  | .rd l k => (c.own t l ∧ ∀ v, (k v).FootB c m0 t) ∨ (c.free l ∧ ∀ v, m0.rd l = .ok v → (k v).FootB c m0 t)
  | .wr l _ k => c.own t l ∧ k.FootB c m0 t
  | .atomicAdd l _ k => (c.own t l ∨ c.acc l) ∧ k.FootB c m0 t
  | .raise l _ k => c.raised l ∧ k.FootB c m0 t
  | .raiseWr l v k => c.raised l ∧ FP.ltb (c.base l) v = true ∧ k.FootB c m0 t
  | .ub => False

/-- Sequential execution of a thread until the next barrier. A `raise` loop writes its value if that is larger than the contents at the start of the phase; if some value has already been
written, it may also do nothing. -/
def Prog.wp (base : Loc → α) : Prog α → (Mem α → Prog α → Prop) → Mem α → Prop
  | .done, Q, m => Q m .done
  | .sync k, Q, m => Q m (.sync k)
  | .rd l k, Q, m => ∃ v, m.rd l = .ok v ∧ (k v).wp base Q m
  | .wr l v k, Q, m => ∃ m', m.wr l v = .ok m' ∧ k.wp base Q m'
  | .atomicAdd l v k, Q, m => ∃ x m', m.rd l = .ok x ∧ m.wr l (x + v) = .ok m' ∧ k.wp base Q m'
  | .raise l v k, Q, m => ∃ x, m.rd l = .ok x ∧ (FP.ltb (base l) v = true → ∃ m', m.wr l v = .ok m' ∧ k.wp base Q m') ∧
      ((x ≠ base l ∨ FP.ltb (base l) v = false) → k.wp base Q m)
  | .raiseWr l v k, Q, m => ∃ x, m.rd l = .ok x ∧ (FP.ltb (base l) v = true → ∃ m', m.wr l v = .ok m' ∧ k.wp base Q m') ∧
      ((x ≠ base l ∨ FP.ltb (base l) v = false) → k.wp base Q m)
  | .ub, _, _ => False

theorem Prog.wp_mono {base : Loc → α} {Q Q' : Mem α → Prog α → Prop} (h : ∀ m p, Q m p → Q' m p) : ∀ (p : Prog α) m, p.wp base Q m → p.wp base Q' m := by
  intro p
  induction p with
  | done => intro m hw; exact h _ _ hw
  | sync k => intro m hw; exact h _ _ hw
  | rd l k ih => rintro m ⟨v, hv, hw⟩; exact ⟨v, hv, ih v m hw⟩
  | wr l v k ih => rintro m ⟨v, hv, hw⟩; exact ⟨v, hv, ih _ hw⟩
  | atomicAdd l v k ih => rintro m ⟨x, m', h1, h2, hw⟩; exact ⟨x, m', h1, h2, ih _ hw⟩
  | raise l v k ih => rintro m ⟨x, h1, h2, h3⟩; exact ⟨x, h1, fun h => (h2 h).imp fun _ h => ⟨h.1, ih _ h.2⟩, fun h => ih _ (h3 h)⟩
  | raiseWr l v k ih => rintro m ⟨x, h1, h2, h3⟩; exact ⟨x, h1, fun h => (h2 h).imp fun _ h => ⟨h.1, ih _ h.2⟩, fun h => ih _ (h3 h)⟩
  | ub => intro m hw; exact hw

/-- A relation between memories that thread `t` does not notice. -/
structure Outside (c : Cls α) (t : Tid) (op : Mem α → Mem α → Prop) : Prop where
  rd : ∀ m m1 l, op m m1 → c.own t l ∨ c.free l → m1.rd l = m.rd l
  wr : ∀ m m1 m' l v, op m m1 → c.own t l → m.wr l v = .ok m' → ∃ m1', m1.wr l v = .ok m1' ∧ op m' m1'
  add : ∀ m m1 m' l x v, op m m1 → c.own t l ∨ c.acc l → m.rd l = .ok x → m.wr l (x + v) = .ok m' → ∃ y m1', m1.rd l = .ok y ∧ m1.wr l (y + v) = .ok m1' ∧ op m' m1'
  raise : ∀ m m1 l x v, op m m1 → c.raised l → m.rd l = .ok x → ∃ y, m1.rd l = .ok y ∧
    (FP.ltb (c.base l) v = true → ∀ m', m.wr l v = .ok m' → ∃ m1', m1.wr l v = .ok m1' ∧ op m' m1') ∧
    (x = c.base l → y ≠ c.base l → FP.ltb (c.base l) v = true → ∀ m', m.wr l v = .ok m' → op m' m1)

theorem Mem.free_wr {c : Cls α} {m m' m0 : Mem α} {l : Loc} {v : α} (h : m.wr l v = .ok m') (hl : ¬ c.free l) (hm : ∀ l, c.free l → m.rd l = m0.rd l) : ∀ l, c.free l → m'.rd l = m0.rd l :=
  fun l' hl' => by rw [Mem.rd_wr_ne h (by rintro rfl; exact hl hl'), hm l' hl']

theorem Cls.Ok.acc_or {c : Cls α} (hc : c.Ok) {t : Tid} {l : Loc} (h : c.own t l ∨ c.acc l) : ¬ c.free l := h.elim (hc.own_free t l) (hc.acc_free l)

theorem Prog.wp_outside {c : Cls α} (hc : c.Ok) {m0 : Mem α} {t : Tid} {op : Mem α → Mem α → Prop} (ho : Outside c t op) {Q Q1 : Mem α → Prog α → Prop}
    (hQ : ∀ m m1 p, op m m1 → (∀ l, c.free l → m.rd l = m0.rd l) → Q m p → Q1 m1 p) :
    ∀ (p : Prog α), p.FootB c m0 t → ∀ m m1, op m m1 → (∀ l, c.free l → m.rd l = m0.rd l) → p.wp c.base Q m → p.wp c.base Q1 m1 := by
  intro p
  have hraise : ∀ (l : Loc) (v : α) (k : Prog α), c.raised l → (∀ m m1, op m m1 → (∀ l, c.free l → m.rd l = m0.rd l) → k.wp c.base Q m → k.wp c.base Q1 m1) →
      ∀ m m1, op m m1 → (∀ l, c.free l → m.rd l = m0.rd l) → (Prog.raise l v k).wp c.base Q m → (Prog.raise l v k).wp c.base Q1 m1 := by
    rintro l v k hr ih m m1 hop hm ⟨x, hx, h2, h3⟩
    obtain ⟨y, hy, e1, e2⟩ := ho.raise m m1 l x v hop hr hx
    refine ⟨y, hy, fun hb => ?_, fun hb => ?_⟩
    · obtain ⟨m', hm', hk⟩ := h2 hb
      obtain ⟨m1', hm1', hop'⟩ := e1 hb m' hm'
      exact ⟨m1', hm1', ih _ _ hop' (Mem.free_wr hm' (hc.raised_free l hr) hm) hk⟩
    · by_cases hbv : FP.ltb (c.base l) v = true
      · have hy' : y ≠ c.base l := hb.resolve_right (by simp [hbv])
        by_cases hxb : x = c.base l
        · obtain ⟨m', hm', hk⟩ := h2 hbv
          exact ih _ _ (e2 hxb hy' hbv m' hm') (Mem.free_wr hm' (hc.raised_free l hr) hm) hk
        · exact ih _ _ hop hm (h3 (Or.inl hxb))
      · exact ih _ _ hop hm (h3 (Or.inr (by simpa using hbv)))
  induction p with
  | done => intro _ m m1 hop hm hw; exact hQ _ _ _ hop hm hw
  | sync k => intro _ m m1 hop hm hw; exact hQ _ _ _ hop hm hw
  | rd l k ih =>
    rintro hf m m1 hop hm ⟨v, hv, hw⟩
    refine ⟨v, ?_, ?_⟩
    · rw [ho.rd m m1 l hop (hf.imp And.left And.left), hv]
    · refine ih v ?_ m m1 hop hm hw
      rcases hf with hf | hf
      · exact hf.2 v
      · exact hf.2 v (by rw [← hm l hf.1, hv])
  | wr l v k ih =>
    rintro hf m m1 hop hm ⟨m', hm', hw⟩
    obtain ⟨m1', h1, h2⟩ := ho.wr m m1 m' l v hop hf.1 hm'
    exact ⟨m1', h1, ih hf.2 m' m1' h2 (Mem.free_wr hm' (hc.own_free t l hf.1) hm) hw⟩
  | atomicAdd l v k ih =>
    rintro hf m m1 hop hm ⟨x, m', hx, hm', hw⟩
    obtain ⟨y, m1', h0, h1, h2⟩ := ho.add m m1 m' l x v hop hf.1 hx hm'
    exact ⟨y, m1', h0, h1, ih hf.2 m' m1' h2 (Mem.free_wr hm' (hc.acc_or hf.1) hm) hw⟩
  | raise l v k ih => exact fun hf => hraise l v k hf.1 (ih hf.2)
  | raiseWr l v k ih => exact fun hf => hraise l v k hf.1 (ih hf.2.2)
  | ub => intro hf; exact hf.elim

/-- Sequential execution of the threads of a list until the next barrier. -/
def wpSeq (base : Loc → α) (Q : Mem α → (Tid → Prog α) → Prop) : List Tid → (Tid → Prog α) → Mem α → Prop
  | [], P, m => Q m P
  | t :: L, P, m => (P t).wp base (fun m' p' => wpSeq base Q L (Function.update P t p') m') m

theorem wpSeq_mono {base : Loc → α} {Q Q' : Mem α → (Tid → Prog α) → Prop} (h : ∀ m p, Q m p → Q' m p) : ∀ (L : List Tid) P m, wpSeq base Q L P m → wpSeq base Q' L P m := by
  intro L
  induction L with
  | nil => intro P m hw; exact h _ _ hw
  | cons t L ih => intro P m hw; exact Prog.wp_mono (fun m p => ih _ m) _ _ hw

/-- A step of thread `t` may be done first. -/
theorem wpSeq_op {c : Cls α} (hc : c.Ok) {m0 : Mem α} {t : Tid} {op : Mem α → Mem α → Prop} {p q : Prog α} {Q : Mem α → (Tid → Prog α) → Prop}
    (hp : ∀ Q m m1, op m m1 → p.wp c.base Q m → q.wp c.base Q m1) (ho : ∀ u, u ≠ t → Outside c u op) :
    ∀ (L : List Tid) (P : Tid → Prog α), L.Nodup → t ∈ L → P t = p → (∀ u ∈ L, (P u).FootB c m0 u) → ∀ m m1, op m m1 → (∀ l, c.free l → m.rd l = m0.rd l) →
      wpSeq c.base Q L P m → wpSeq c.base Q L (Function.update P t q) m1 := by
  intro L
  induction L with
  | nil => intro P _ ht; cases ht
  | cons u L ih =>
    intro P hn ht hP hf m m1 hop hm hw
    have hn' := List.nodup_cons.1 hn
    by_cases hu : u = t
    · subst hu
      simp only [wpSeq, Function.update_self, Function.update_idem] at hw ⊢
      rw [hP] at hw
      exact hp _ _ _ hop hw
    · have htL : t ∈ L := (List.mem_cons.1 ht).resolve_left (Ne.symm hu)
      simp only [wpSeq] at hw ⊢
      rw [Function.update_of_ne hu]
      refine Prog.wp_outside hc (ho u hu) (fun m m1 p' hop hm hw => ?_) (P u) (hf u (by simp)) m m1 hop hm hw
      rw [Function.update_comm (Ne.symm hu)]
      refine ih (Function.update P u p') hn'.2 htL ?_ (fun w hwL => ?_) m m1 hop hm hw
      · rw [Function.update_of_ne (Ne.symm hu)]; exact hP
      · rw [Function.update_of_ne (by rintro rfl; exact hn'.1 hwL)]
        exact hf w (by simp [hwL])

/-- Memory seen by a thread when the threads before it have finished. -/
theorem Prog.wp_peek {c : Cls α} (hc : c.Ok) {m0 : Mem α} {u : Tid} {Q : Mem α → Prog α → Prop} : ∀ (p : Prog α), p.FootB c m0 u → ∀ m, (∀ l, c.free l → m.rd l = m0.rd l) → p.wp c.base Q m →
    ∃ m' p', Q m' p' ∧ (∀ l, ¬ c.own u l → ¬ c.acc l → ¬ c.raised l → m'.rd l = m.rd l) ∧ (∀ sp, (m' sp).size = (m sp).size) ∧
      (∀ l, ¬ c.own u l → (∃ x, m'.rd l = .ok x) → ∃ x, m.rd l = .ok x) := by
  intro p
  have hraise : ∀ (l : Loc) (v : α) (k : Prog α), c.raised l → (∀ m, (∀ l, c.free l → m.rd l = m0.rd l) → k.wp c.base Q m →
    ∃ m' p', Q m' p' ∧ (∀ l, ¬ c.own u l → ¬ c.acc l → ¬ c.raised l → m'.rd l = m.rd l) ∧ (∀ sp, (m' sp).size = (m sp).size) ∧
      (∀ l, ¬ c.own u l → (∃ x, m'.rd l = .ok x) → ∃ x, m.rd l = .ok x)) → ∀ m, (∀ l, c.free l → m.rd l = m0.rd l) → (Prog.raise l v k).wp c.base Q m →
    ∃ m' p', Q m' p' ∧ (∀ l, ¬ c.own u l → ¬ c.acc l → ¬ c.raised l → m'.rd l = m.rd l) ∧ (∀ sp, (m' sp).size = (m sp).size) ∧
      (∀ l, ¬ c.own u l → (∃ x, m'.rd l = .ok x) → ∃ x, m.rd l = .ok x) := by
    rintro l v k hr ih m hm ⟨x, hx, h2, h3⟩
    cases hbv : FP.ltb (c.base l) v with
    | false => exact ih m hm (h3 (Or.inr hbv))
    | true =>
      obtain ⟨m', hm', hk⟩ := h2 hbv
      obtain ⟨m2, p2, hq, e1, e2, e3⟩ := ih m' (Mem.free_wr hm' (hc.raised_free l hr) hm) hk
      refine ⟨m2, p2, hq, fun l' a1 a2 a3 => ?_, fun sp => by rw [e2, Mem.wr_size hm'], fun l' a1 a2 => ?_⟩
      · rw [e1 l' a1 a2 a3, Mem.rd_wr_ne hm' (by rintro rfl; exact a3 hr)]
      · by_cases e : l' = l
        · subst e; exact ⟨x, hx⟩
        · obtain ⟨y, hy⟩ := e3 l' a1 a2
          exact ⟨y, by rw [← Mem.rd_wr_ne hm' e, hy]⟩
  induction p with
  | done => intro _ m hm hw; exact ⟨m, _, hw, fun _ _ _ _ => rfl, fun _ => rfl, fun _ _ h => h⟩
  | sync k => intro _ m hm hw; exact ⟨m, _, hw, fun _ _ _ _ => rfl, fun _ => rfl, fun _ _ h => h⟩
  | rd l k ih =>
    rintro hf m hm ⟨v, hv, hw⟩
    refine ih v ?_ m hm hw
    rcases hf with hf | hf
    · exact hf.2 v
    · exact hf.2 v (by rw [← hm l hf.1, hv])
  | wr l v k ih =>
    rintro hf m hm ⟨m', hm', hw⟩
    obtain ⟨m2, p2, hq, e1, e2, e3⟩ := ih hf.2 m' (Mem.free_wr hm' (hc.own_free u l hf.1) hm) hw
    refine ⟨m2, p2, hq, fun l' a1 a2 a3 => ?_, fun sp => by rw [e2, Mem.wr_size hm'], fun l' a1 a2 => ?_⟩
    · rw [e1 l' a1 a2 a3, Mem.rd_wr_ne hm' (by rintro rfl; exact a1 hf.1)]
    · have e : l' ≠ l := by rintro rfl; exact a1 hf.1
      obtain ⟨y, hy⟩ := e3 l' a1 a2
      exact ⟨y, by rw [← Mem.rd_wr_ne hm' e, hy]⟩
  | atomicAdd l v k ih =>
    rintro hf m hm ⟨x, m', hx, hm', hw⟩
    obtain ⟨m2, p2, hq, e1, e2, e3⟩ := ih hf.2 m' (Mem.free_wr hm' (hc.acc_or hf.1) hm) hw
    refine ⟨m2, p2, hq, fun l' a1 a2 a3 => ?_, fun sp => by rw [e2, Mem.wr_size hm'], fun l' a1 a2 => ?_⟩
    · rw [e1 l' a1 a2 a3, Mem.rd_wr_ne hm' (by rintro rfl; exact hf.1.elim a1 a2)]
    · by_cases e : l' = l
      · subst e; exact ⟨x, hx⟩
      · obtain ⟨y, hy⟩ := e3 l' a1 a2
        exact ⟨y, by rw [← Mem.rd_wr_ne hm' e, hy]⟩
  | raise l v k ih => exact fun hf => hraise l v k hf.1 (ih hf.2)
  | raiseWr l v k ih => exact fun hf => hraise l v k hf.1 (ih hf.2.2)
  | ub => intro hf; exact hf.elim

theorem Prog.wp_free {c : Cls α} (hc : c.Ok) {m0 : Mem α} {u : Tid} {Q : Mem α → Prog α → Prop} : ∀ (p : Prog α), p.FootB c m0 u → ∀ m, (∀ l, c.free l → m.rd l = m0.rd l) → p.wp c.base Q m →
    p.wp c.base (fun m' p' => Q m' p' ∧ ∀ l, c.free l → m'.rd l = m0.rd l) m := by
  intro p
  have hraise : ∀ (l : Loc) (v : α) (k : Prog α), c.raised l → (∀ m, (∀ l, c.free l → m.rd l = m0.rd l) → k.wp c.base Q m →
    k.wp c.base (fun m' p' => Q m' p' ∧ ∀ l, c.free l → m'.rd l = m0.rd l) m) → ∀ m, (∀ l, c.free l → m.rd l = m0.rd l) → (Prog.raise l v k).wp c.base Q m →
    (Prog.raise l v k).wp c.base (fun m' p' => Q m' p' ∧ ∀ l, c.free l → m'.rd l = m0.rd l) m := by
    rintro l v k hr ih m hm ⟨x, hx, h2, h3⟩
    refine ⟨x, hx, fun hb => ?_, fun hb => ih m hm (h3 hb)⟩
    obtain ⟨m', hm', hk⟩ := h2 hb
    exact ⟨m', hm', ih _ (Mem.free_wr hm' (hc.raised_free l hr) hm) hk⟩
  induction p with
  | done => intro _ m hm hw; exact ⟨hw, hm⟩
  | sync k => intro _ m hm hw; exact ⟨hw, hm⟩
  | rd l k ih =>
    rintro hf m hm ⟨v, hv, hw⟩
    refine ⟨v, hv, ih v ?_ m hm hw⟩
    rcases hf with hf | hf
    · exact hf.2 v
    · exact hf.2 v (by rw [← hm l hf.1, hv])
  | wr l v k ih =>
    rintro hf m hm ⟨m', hm', hw⟩
    exact ⟨m', hm', ih hf.2 m' (Mem.free_wr hm' (hc.own_free u l hf.1) hm) hw⟩
  | atomicAdd l v k ih =>
    rintro hf m hm ⟨x, m', hx, hm', hw⟩
    exact ⟨x, m', hx, hm', ih hf.2 m' (Mem.free_wr hm' (hc.acc_or hf.1) hm) hw⟩
  | raise l v k ih => exact fun hf => hraise l v k hf.1 (ih hf.2)
  | raiseWr l v k ih => exact fun hf => hraise l v k hf.1 (ih hf.2.2)
  | ub => intro hf; exact hf.elim

theorem wpSeq_peek {c : Cls α} (hc : c.Ok) {m0 : Mem α} {t : Tid} {Q : Mem α → (Tid → Prog α) → Prop} : ∀ (L : List Tid) (P : Tid → Prog α), L.Nodup → t ∈ L →
    (∀ u ∈ L, (P u).FootB c m0 u) → ∀ m, (∀ l, c.free l → m.rd l = m0.rd l) → wpSeq c.base Q L P m →
    ∃ Q' m', (P t).wp c.base Q' m' ∧ (∀ l, c.own t l ∨ c.free l → m'.rd l = m.rd l) ∧ (∀ sp, (m' sp).size = (m sp).size) ∧
      (∀ l, c.own t l ∨ c.acc l → (∃ x, m'.rd l = .ok x) → ∃ x, m.rd l = .ok x) := by
  intro L
  induction L with
  | nil => intro P _ ht; cases ht
  | cons u L ih =>
    intro P hn ht hf m hm hw
    have hn' := List.nodup_cons.1 hn
    by_cases hu : u = t
    · subst hu
      exact ⟨_, m, hw, fun _ _ => rfl, fun _ => rfl, fun _ _ h => h⟩
    · have htL : t ∈ L := (List.mem_cons.1 ht).resolve_left (Ne.symm hu)
      obtain ⟨m1, p1, ⟨hw1, hm1⟩, e1, e2, e3⟩ := Prog.wp_peek hc (P u) (hf u (by simp)) m hm (Prog.wp_free hc (P u) (hf u (by simp)) m hm hw)
      obtain ⟨Q', m2, hw2, d1, d2, d3⟩ := ih (Function.update P u p1) hn'.2 htL (fun w hwL => by
        rw [Function.update_of_ne (by rintro rfl; exact hn'.1 hwL)]
        exact hf w (by simp [hwL])) m1 hm1 hw1
      rw [Function.update_of_ne (Ne.symm hu)] at hw2
      have hnot : ∀ l, c.own t l ∨ c.acc l → ¬ c.own u l := fun l hl => hl.elim (fun h => hc.disj t u l (Ne.symm hu) h) (fun h h' => hc.own_acc u l h' h)
      refine ⟨Q', m2, hw2, fun l hl => ?_, fun sp => by rw [d2, e2], fun l hl hx => e3 l (hnot l hl) (d3 l hl hx)⟩
      rw [d1 l hl]
      refine hl.elim (fun h => ?_) (fun h => ?_)
      · exact e1 l (hc.disj t u l (Ne.symm hu) h) (hc.own_acc t l h) (hc.own_raised t l h)
      · rw [hm1 l h, hm l h]

/-! ### Steps that other threads do not notice -/

section
variable {c : Cls α} (hc : c.Ok) {t u : Tid} (htu : u ≠ t)
include hc htu

theorem outside_rd {l : Loc} (hl : c.own t l ∨ c.free l) (v : α) : Outside c u fun m m1 => m1 = m ∧ m.rd l = .ok v := by
  have hne : ∀ l', c.own u l' ∨ c.acc l' ∨ c.raised l' → l' ≠ l := by
    rintro l' h rfl
    rcases hl with hl | hl
    · rcases h with h | h | h
      · exact hc.disj u t l' htu h hl
      · exact hc.own_acc t l' hl h
      · exact hc.own_raised t l' hl h
    · rcases h with h | h | h
      · exact hc.own_free u l' h hl
      · exact hc.acc_free l' h hl
      · exact hc.raised_free l' h hl
  refine ⟨?_, ?_, ?_, ?_⟩
  · rintro m _ l' ⟨rfl, _⟩ _; rfl
  · rintro m _ m' l' v' ⟨rfl, hv⟩ hl' hw
    exact ⟨m', hw, rfl, by rw [Mem.rd_wr_ne hw (hne l' (Or.inl hl')).symm, hv]⟩
  · rintro m _ m' l' x v' ⟨rfl, hv⟩ hl' hx hw
    exact ⟨x, m', hx, hw, rfl, by rw [Mem.rd_wr_ne hw (hne l' (hl'.imp id Or.inl)).symm, hv]⟩
  · rintro m _ l' x v' ⟨rfl, hv⟩ hl' hx
    exact ⟨x, hx, fun _ m' hw => ⟨m', hw, rfl, by rw [Mem.rd_wr_ne hw (hne l' (Or.inr (Or.inr hl'))).symm, hv]⟩, fun h h' => (h' h).elim⟩

omit hc htu in
theorem outside_id : Outside c u fun m m1 => m1 = m := by
  refine ⟨?_, ?_, ?_, ?_⟩
  · rintro m _ l' rfl _; rfl
  · rintro m _ m' l' v' rfl hl' hw; exact ⟨m', hw, rfl⟩
  · rintro m _ m' l' x v' rfl hl' hx hw; exact ⟨x, m', hx, hw, rfl⟩
  · rintro m _ l' x v' rfl hl' hx; exact ⟨x, hx, fun _ m' hw => ⟨m', hw, rfl⟩, fun h h' => (h' h).elim⟩

theorem outside_wr {l : Loc} (hl : c.own t l) (v : α) : Outside c u fun m m1 => m.wr l v = .ok m1 := by
  have hne : ∀ l', c.own u l' ∨ c.acc l' ∨ c.raised l' ∨ c.free l' → l' ≠ l := by
    rintro l' h rfl
    rcases h with h | h | h | h
    · exact hc.disj u t l' htu h hl
    · exact hc.own_acc t l' hl h
    · exact hc.own_raised t l' hl h
    · exact hc.own_free t l' hl h
  have comm : ∀ {m m1 m' : Mem α} {l' v'}, l' ≠ l → m.wr l v = .ok m1 → m.wr l' v' = .ok m' → ∃ m1', m1.wr l' v' = .ok m1' ∧ m'.wr l v = .ok m1' := by
    intro m m1 m' l' v' hn h1 h2
    obtain ⟨m2, h3⟩ := Mem.wr_can (m := m1) (l := l') (by rw [Mem.wr_size h1]; exact Mem.wr_lt h2) v'
    obtain ⟨m3, h4, h5⟩ := Mem.wr_comm hn.symm h1 h3
    rw [h2] at h4
    cases h4
    exact ⟨m2, h3, h5⟩
  refine ⟨?_, ?_, ?_, ?_⟩
  · rintro m m1 l' hop hl'
    exact Mem.rd_wr_ne hop (hne l' (by tauto))
  · rintro m m1 m' l' v' hop hl' hw
    exact comm (hne l' (Or.inl hl')) hop hw
  · rintro m m1 m' l' x v' hop hl' hx hw
    have hn := hne l' (by tauto)
    obtain ⟨m2, h1, h2⟩ := comm hn hop hw
    exact ⟨x, m2, by rw [Mem.rd_wr_ne hop hn, hx], h1, h2⟩
  · rintro m m1 l' x v' hop hl' hx
    have hn := hne l' (by tauto)
    exact ⟨x, by rw [Mem.rd_wr_ne hop hn, hx], fun _ m' hw => comm hn hop hw, fun h h' => (h' h).elim⟩

theorem outside_add {l : Loc} (hl : c.own t l ∨ c.acc l) (v : α) : Outside c u fun m m1 => ∃ x, m.rd l = .ok x ∧ m.wr l (x + v) = .ok m1 := by
  have hne : ∀ l', c.own u l' ∨ c.raised l' ∨ c.free l' → l' ≠ l := by
    rintro l' h rfl
    rcases hl with hl | hl
    · rcases h with h | h | h
      · exact hc.disj u t l' htu h hl
      · exact hc.own_raised t l' hl h
      · exact hc.own_free t l' hl h
    · rcases h with h | h | h
      · exact hc.own_acc u l' h hl
      · exact hc.acc_raised l' hl h
      · exact hc.acc_free l' hl h
  have comm : ∀ {m m1 m' : Mem α} {l' v' w}, l' ≠ l → m.wr l w = .ok m1 → m.wr l' v' = .ok m' → ∃ m1', m1.wr l' v' = .ok m1' ∧ m'.wr l w = .ok m1' := by
    intro m m1 m' l' v' w hn h1 h2
    obtain ⟨m2, h3⟩ := Mem.wr_can (m := m1) (l := l') (by rw [Mem.wr_size h1]; exact Mem.wr_lt h2) v'
    obtain ⟨m3, h4, h5⟩ := Mem.wr_comm hn.symm h1 h3
    rw [h2] at h4
    cases h4
    exact ⟨m2, h3, h5⟩
  refine ⟨?_, ?_, ?_, ?_⟩
  · rintro m m1 l' ⟨x, hx, hop⟩ hl'
    exact Mem.rd_wr_ne hop (hne l' (by tauto))
  · rintro m m1 m' l' v' ⟨x, hx, hop⟩ hl' hw
    have hn := hne l' (Or.inl hl')
    obtain ⟨m2, h1, h2⟩ := comm hn hop hw
    exact ⟨m2, h1, x, by rw [Mem.rd_wr_ne hw hn.symm, hx], h2⟩
  · rintro m m1 m' l' x v' ⟨y, hy, hop⟩ hl' hx hw
    by_cases hn : l' = l
    · subst hn
      rw [hx] at hy
      cases hy
      have hac : c.acc l' := by
        rcases hl' with h | h
        · exact (hne l' (Or.inl h) rfl).elim
        · exact h
      obtain ⟨m2, h2, h3⟩ := Mem.wr_any hop (x + v + v')
      obtain ⟨m3, h4, h5⟩ := Mem.wr_any hw (x + v' + v)
      have e : m3 = m2 := by
        rw [hc.comm l' hac x v' v] at h4
        rw [h4] at h2
        cases h2
        rfl
      subst e
      exact ⟨x + v, m3, Mem.rd_wr_eq hop, h3, x + v', Mem.rd_wr_eq hw, h5⟩
    · obtain ⟨m2, h1, h2⟩ := comm hn hop hw
      exact ⟨x, m2, by rw [Mem.rd_wr_ne hop hn, hx], h1, y, by rw [Mem.rd_wr_ne hw (Ne.symm hn), hy], h2⟩
  · rintro m m1 l' x v' ⟨y, hy, hop⟩ hl' hx
    have hn := hne l' (by tauto)
    refine ⟨x, by rw [Mem.rd_wr_ne hop hn, hx], fun _ m' hw => ?_, fun h h' => (h' h).elim⟩
    obtain ⟨m2, h1, h2⟩ := comm hn hop hw
    exact ⟨m2, h1, y, by rw [Mem.rd_wr_ne hw (Ne.symm hn), hy], h2⟩

omit htu in
theorem outside_skip {l : Loc} (hl : c.raised l) (b : Prop) : Outside c u fun m m1 => m1 = m ∧ ((∃ x, m.rd l = .ok x ∧ x ≠ c.base l) ∨ b) := by
  have hne : ∀ l', c.own u l' ∨ c.acc l' → l' ≠ l := by
    rintro l' h rfl
    rcases h with h | h
    · exact hc.own_raised u l' h hl
    · exact hc.acc_raised l' h hl
  have step : ∀ {m m' : Mem α} {l' v'}, l' ≠ l → m.wr l' v' = .ok m' → ((∃ x, m.rd l = .ok x ∧ x ≠ c.base l) ∨ b) → ((∃ x, m'.rd l = .ok x ∧ x ≠ c.base l) ∨ b) := by
    rintro m m' l' v' hn hw (⟨x, hx, h⟩ | h)
    · exact Or.inl ⟨x, by rw [Mem.rd_wr_ne hw hn.symm, hx], h⟩
    · exact Or.inr h
  refine ⟨?_, ?_, ?_, ?_⟩
  · rintro m _ l' ⟨rfl, _⟩ _; rfl
  · rintro m _ m' l' v' ⟨rfl, h⟩ hl' hw
    exact ⟨m', hw, rfl, step (hne l' (Or.inl hl')) hw h⟩
  · rintro m _ m' l' x v' ⟨rfl, h⟩ hl' hx hw
    exact ⟨x, m', hx, hw, rfl, step (hne l' hl') hw h⟩
  · rintro m _ l' x v' ⟨rfl, h⟩ hl' hx
    refine ⟨x, hx, fun hb m' hw => ⟨m', hw, rfl, ?_⟩, fun h h' => (h' h).elim⟩
    by_cases hn : l' = l
    · subst hn
      refine Or.inl ⟨v', Mem.rd_wr_eq hw, ?_⟩
      rintro e
      rw [← e, (hc.ord l' hl).1] at hb
      cases hb
    · exact step hn hw h

omit htu in
theorem outside_raise {l : Loc} (hl : c.raised l) {w : α} (hw : FP.ltb (c.base l) w = true) :
    Outside c u fun m m1 => m.wr l w = .ok m1 ∨ (m1 = m ∧ ∃ x, m.rd l = .ok x ∧ x ≠ c.base l) := by
  have hne : ∀ l', c.own u l' ∨ c.acc l' ∨ c.free l' → l' ≠ l := by
    rintro l' h rfl
    rcases h with h | h | h
    · exact hc.own_raised u l' h hl
    · exact hc.acc_raised l' h hl
    · exact hc.raised_free l' hl h
  have hbase : ∀ x, FP.ltb (c.base l) x = true → x ≠ c.base l := by
    rintro x hx rfl
    rw [(hc.ord l hl).1] at hx
    cases hx
  have comm : ∀ {m m1 m' : Mem α} {l' v'}, l' ≠ l → (m.wr l w = .ok m1 ∨ (m1 = m ∧ ∃ x, m.rd l = .ok x ∧ x ≠ c.base l)) → m.wr l' v' = .ok m' →
      ∃ m1', m1.wr l' v' = .ok m1' ∧ (m'.wr l w = .ok m1' ∨ (m1' = m' ∧ ∃ x, m'.rd l = .ok x ∧ x ≠ c.base l)) := by
    rintro m m1 m' l' v' hn (h1 | ⟨rfl, x, hx, h⟩) h2
    · obtain ⟨m2, h3⟩ := Mem.wr_can (m := m1) (l := l') (by rw [Mem.wr_size h1]; exact Mem.wr_lt h2) v'
      obtain ⟨m3, h4, h5⟩ := Mem.wr_comm hn.symm h1 h3
      rw [h2] at h4
      cases h4
      exact ⟨m2, h3, Or.inl h5⟩
    · exact ⟨m', h2, Or.inr ⟨rfl, x, by rw [Mem.rd_wr_ne h2 hn.symm, hx], h⟩⟩
  have same : ∀ {m m1 : Mem α} {l'}, l' ≠ l → (m.wr l w = .ok m1 ∨ (m1 = m ∧ ∃ x, m.rd l = .ok x ∧ x ≠ c.base l)) → m1.rd l' = m.rd l' := by
    rintro m m1 l' hn (h | ⟨rfl, _⟩)
    · exact Mem.rd_wr_ne h hn
    · rfl
  refine ⟨?_, ?_, ?_, ?_⟩
  · rintro m m1 l' hop hl'
    exact same (hne l' (by tauto)) hop
  · rintro m m1 m' l' v' hop hl' hw'
    exact comm (hne l' (Or.inl hl')) hop hw'
  · rintro m m1 m' l' x v' hop hl' hx hw'
    have hn := hne l' (by tauto)
    obtain ⟨m2, h1, h2⟩ := comm hn hop hw'
    exact ⟨x, m2, by rw [same hn hop, hx], h1, h2⟩
  · rintro m m1 l' x v' hop hl' hx
    by_cases hn : l' = l
    swap
    · exact ⟨x, by rw [same hn hop, hx], fun _ m' hw' => comm hn hop hw', fun h h' => (h' h).elim⟩
    subst hn
    rcases hop with hop | ⟨rfl, y, hy, hyb⟩
    · refine ⟨w, Mem.rd_wr_eq hop, fun hb m' hm' => ?_, fun _ _ hb m' hm' => ?_⟩
      · obtain ⟨m2, h1, h2⟩ := Mem.wr_any hop v'
        rw [hm'] at h1
        cases h1
        exact ⟨m', h2, Or.inr ⟨rfl, v', Mem.rd_wr_eq hm', hbase v' hb⟩⟩
      · obtain ⟨m2, h1, h2⟩ := Mem.wr_any hm' w
        rw [hop] at h1
        cases h1
        exact Or.inl h2
    · refine ⟨x, hx, fun hb m' hm' => ⟨m', hm', Or.inr ⟨rfl, v', Mem.rd_wr_eq hm', hbase v' hb⟩⟩, fun h h' => (h' h).elim⟩

end

end NNTile
