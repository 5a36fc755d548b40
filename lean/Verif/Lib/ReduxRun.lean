import Verif.Model.ReduxRun
import Verif.Lib.Task
import Mathlib.Algebra.Group.Defs
/-! Executions with replicas give the results of the sequential execution. -/
namespace NNTile
variable {α : Type}

/-- What is needed of initialisation and accumulation codelets: contributions form a commutative semigroup which acts on buffers. -/
structure Reduction (α : Type) where
  cl : ReduxCl α
  G : Type
  [inst : AddCommSemigroup G]
  act : G → Buf α → Buf α
  D : Buf α → Prop
  zero : Nat → Buf α
  init_ok : ∀ n, cl.init (Buf.undef n) = .ok (zero n)
  zero_size : ∀ n, (zero n).size = n
  zero_D : ∀ n, D (zero n)
  act_size : ∀ g b, (act g b).size = b.size
  act_D : ∀ g b, D b → D (act g b)
  act_add : ∀ g g' b, act g (act g' b) = act (g + g') b
  merge_ok : ∀ g b, D b → cl.merge (act g (zero b.size)) b = .ok (act g b)

attribute [instance] Reduction.inst

theorem Reduction.act_comm (K : Reduction α) (g g' : K.G) (b : Buf α) : K.act g (K.act g' b) = K.act g' (K.act g b) := by
  rw [K.act_add, K.act_add, add_comm]

/-- The task can be executed on the tile, and it contributes the same `g` to any tile of this size. -/
def Task1.GoodAt (t : Task1 α) (K : Reduction α) (s : Store α) : Prop :=
  K.D (s t.out) ∧ ∃ g, ∀ c, c.size = (s t.out).size → K.D c → t.fn (t.reads.map s) c = .ok (K.act g c)

/-- Execution of a task, which is good if its mode is `REDUX`. -/
def Ex (K : Handle → Reduction α) (t : Task1 α) (s s' : Store α) : Prop := t.toTask.exec s = .ok s' ∧ (t.mode = .REDUX → t.GoodAt (K t.out) s)

/-- Sequential execution of tasks, where tasks in mode `REDUX` are good. -/
def RunG (K : Handle → Reduction α) : List (Task1 α) → Store α → Store α → Prop
  | [], s, s' => s = s'
  | t :: ts, s, s' => ∃ s1, Ex K t s s1 ∧ RunG K ts s1 s'

variable {K : Handle → Reduction α}

theorem Task1.exec_iff {t : Task1 α} {s s' : Store α} : t.toTask.exec s = .ok s' ↔
    t.out ∉ t.reads ∧ ∃ b, t.fn (t.reads.map s) (s.view (t.out, t.mode)) = .ok b ∧ s' = fun k => if k = t.out then b else s k := by
  simp only [Task.exec, Task.outs, Task1.toTask, List.map_cons, List.map_nil, List.nodup_cons, List.not_mem_nil, not_false_eq_true, List.nodup_nil, and_self, not_true_eq_false,
    List.mem_singleton, exists_eq_left, false_or]
  by_cases h : t.out ∈ t.reads
  · simp [h]
  · rw [if_neg h]
    simp only [M.bind_eq_ok, h, not_false_eq_true, true_and]
    constructor
    · rintro ⟨o, ⟨b, hb, e⟩, e'⟩
      cases Except.ok.inj e
      exact ⟨b, hb, (Except.ok.inj e').symm⟩
    · rintro ⟨b, hb, rfl⟩
      exact ⟨[b], ⟨b, hb, rfl⟩, rfl⟩

theorem Task1.Waits.symm {t u : Task1 α} (h : t.Waits u) : u.Waits t := by
  rcases h with ⟨h1, h2⟩ | h | h
  · exact .inl ⟨h1.symm, fun h => h2 h.symm⟩
  · exact .inr (.inr h)
  · exact .inr (.inl h)

theorem map_upd {l : List Handle} {s : Store α} {h : Handle} (hn : h ∉ l) (b : Buf α) : l.map (fun k => if k = h then b else s k) = l.map s :=
  List.map_congr_left (fun k hk => if_neg (fun e => hn (by rw [← e]; exact hk)))

theorem upd_comm {h h' : Handle} (hn : h ≠ h') (b b' : Buf α) (s : Store α) :
    (fun k => if k = h' then b' else if k = h then b else s k) = fun k => if k = h then b else if k = h' then b' else s k := by
  funext k
  by_cases e : k = h
  · subst e
    simp [hn]
  · simp [e]

/-- Tasks which do not wait for each other commute. -/
theorem Ex.comm {t u : Task1 α} (hw : ¬ t.Waits u) {s s1 s2 : Store α} (h1 : Ex K t s s1) (h2 : Ex K u s1 s2) : ∃ s3, Ex K u s s3 ∧ Ex K t s3 s2 := by
  obtain ⟨tc, tr, o, tm, tf⟩ := t
  obtain ⟨uc, ur, o', um, uf⟩ := u
  simp only [Task1.Waits, not_or, not_and_or, not_not] at hw
  obtain ⟨w1, w2, w3⟩ := hw
  obtain ⟨e1, g1⟩ := h1
  obtain ⟨e2, g2⟩ := h2
  obtain ⟨n1, b1, f1, rfl⟩ := Task1.exec_iff.1 e1
  obtain ⟨n2, b2, f2, rfl⟩ := Task1.exec_iff.1 e2
  dsimp only at *
  rw [map_upd w2] at f2
  by_cases ho : o = o'
  · subst ho
    obtain ⟨rfl, rfl⟩ := w1.resolve_left (by simp)
    obtain ⟨d1, ga, k1⟩ := g1 rfl
    obtain ⟨d2, gb, k2⟩ := g2 rfl
    have v : ∀ s : Store α, s.view (o, .REDUX) = s o := fun _ => rfl
    dsimp only at *
    rw [v] at f1 f2
    rw [k1 _ rfl d1] at f1
    have f1 := (Except.ok.inj f1).symm
    subst f1
    simp only [if_true, map_upd w2, (K o).act_size] at k2 f2 d2
    rw [k2 _ ((K o).act_size _ _) d2] at f2
    have f2 := (Except.ok.inj f2).symm
    subst f2
    refine ⟨fun k => if k = o then (K o).act gb (s o) else s k, ⟨Task1.exec_iff.2 ⟨n2, _, ?_, rfl⟩, fun _ => ⟨d1, gb, k2⟩⟩,
      ⟨Task1.exec_iff.2 ⟨n1, (K o).act ga ((K o).act gb (s o)), ?_, ?_⟩, fun _ => ⟨?_, ga, ?_⟩⟩⟩
    · exact k2 _ rfl d1
    · dsimp only
      rw [v, map_upd w3, if_pos rfl]
      exact k1 _ ((K o).act_size _ _) ((K o).act_D _ _ d1)
    · funext k
      dsimp only
      by_cases e : k = o
      · simp only [e, if_true]
        exact (K o).act_comm _ _ _
      · simp [e]
    · simpa using (K o).act_D _ _ d1
    · dsimp only
      rw [map_upd w3, if_pos rfl, (K o).act_size]
      exact k1
  · have hv : (Store.view (fun k => if k = o then b1 else s k) (o', um)) = s.view (o', um) := by
      cases um <;> simp [Store.view, Ne.symm ho]
    rw [hv] at f2
    refine ⟨fun k => if k = o' then b2 else s k, ⟨Task1.exec_iff.2 ⟨n2, _, f2, rfl⟩, fun m => ?_⟩, ⟨Task1.exec_iff.2 ⟨n1, b1, ?_, ?_⟩, fun m => ?_⟩⟩
    · have := g2 m
      simpa only [Task1.GoodAt, map_upd w2, if_neg (Ne.symm ho)] using this
    · have hv' : (Store.view (fun k => if k = o' then b2 else s k) (o, tm)) = s.view (o, tm) := by
        cases tm <;> simp [Store.view, ho]
      dsimp only
      rw [map_upd w3, hv', f1]
    · exact upd_comm ho b1 b2 s
    · have := g1 m
      simpa only [Task1.GoodAt, map_upd w3, if_neg ho] using this

theorem RunG.append {l l' : List (Task1 α)} {s s' : Store α} : RunG K (l ++ l') s s' ↔ ∃ s1, RunG K l s s1 ∧ RunG K l' s1 s' := by
  induction l generalizing s with
  | nil => simp [RunG]
  | cons t l ih =>
    simp only [List.cons_append, RunG, ih]
    constructor
    · rintro ⟨a, h, b, h1, h2⟩
      exact ⟨b, ⟨a, h, h1⟩, h2⟩
    · rintro ⟨b, ⟨a, h, h1⟩, h2⟩
      exact ⟨a, h, b, h1, h2⟩

theorem Ex.det {t : Task1 α} {s a a' : Store α} (h : Ex K t s a) (h' : Ex K t s a') : a = a' := Except.ok.inj (h.1.symm.trans h'.1)

theorem RunG.det {l : List (Task1 α)} {s a a' : Store α} (h : RunG K l s a) (h' : RunG K l s a') : a = a' := by
  induction l generalizing s with
  | nil => exact h.symm.trans h'
  | cons t l ih =>
    obtain ⟨s1, h1, h2⟩ := h
    obtain ⟨s2, h3, h4⟩ := h'
    cases h1.det h3
    exact ih h2 h4

theorem RunG.delay {t : Task1 α} {l l' : List (Task1 α)} {s s' : Store α} (hc : ∀ u ∈ l, ¬ t.Waits u) (h : RunG K (t :: (l ++ l')) s s') : RunG K (l ++ t :: l') s s' := by
  induction l generalizing s with
  | nil => exact h
  | cons u l ih =>
    obtain ⟨s1, h1, s2, h2, h3⟩ := h
    obtain ⟨s3, h4, h5⟩ := Ex.comm (hc u (by simp)) h1 h2
    exact ⟨s3, h4, ih (fun v hv => hc v (by simp [hv])) ⟨s2, h5, h3⟩⟩

/-- Any order of the tasks which respects who waits for whom. -/
theorem RunG.schedule {ι : Type} [DecidableEq ι] (task : ι → Task1 α) {ts us : List ι} (hnd : ts.Nodup) (hp : us.Perm ts)
    (hord : ∀ i j, [i, j].Sublist ts → (task i).Waits (task j) → [i, j].Sublist us) {s s' : Store α} (h : RunG K (ts.map task) s s') : RunG K (us.map task) s s' := by
  induction ts generalizing us s with
  | nil =>
    have : us = [] := List.Perm.eq_nil hp
    subst this; exact h
  | cons i ts ih =>
    have hi : i ∈ us := hp.symm.subset (by simp)
    obtain ⟨us1, us2, rfl⟩ := List.append_of_mem hi
    have hnd' : (us1 ++ i :: us2).Nodup := hp.symm.nodup hnd
    have hp' : (us1 ++ us2).Perm ts := by
      have := hp.symm.trans (List.perm_middle (l₁ := us1) (a := i) (l₂ := us2))
      exact ((List.perm_cons i).1 this).symm
    rw [List.map_append, List.map_cons]
    apply RunG.delay
    · intro u hu hc
      simp only [List.mem_map] at hu
      obtain ⟨j, hj, rfl⟩ := hu
      have hjt : j ∈ ts := hp'.subset (by simp [hj])
      have hsub := hord i j (by simpa using hjt) hc
      have hij : i ∉ us1 := fun hm => by
        rw [List.nodup_append] at hnd'
        exact hnd'.2.2 i hm i (by simp) rfl
      have hj2 : j ∉ i :: us2 := fun hm => by
        rw [List.nodup_append] at hnd'
        exact hnd'.2.2 j hj j hm rfl
      obtain ⟨l1, l2, he, hs1, hs2⟩ := List.sublist_append_iff.1 hsub
      cases l1 with
      | nil =>
        simp only [List.nil_append] at he
        subst he
        exact hj2 (hs2.subset (by simp))
      | cons a l1 =>
        simp only [List.cons_append, List.cons.injEq] at he
        obtain ⟨rfl, -⟩ := he
        exact hij (hs1.subset (by simp))
    · obtain ⟨s1, h1, h⟩ := h
      rw [← List.map_append]
      refine ⟨s1, h1, ih (List.nodup_cons.1 hnd).2 hp' ?_ h⟩
      intro a b hab hc
      have h3 := hord a b (List.Sublist.trans hab (List.sublist_cons_self i ts)) hc
      have ha : a ≠ i := by
        rintro rfl
        exact (List.nodup_cons.1 hnd).1 (hab.subset (by simp))
      have hb : b ≠ i := by
        rintro rfl
        exact (List.nodup_cons.1 hnd).1 (hab.subset (by simp))
      have h4 := List.Sublist.filter (fun x => decide (x ≠ i)) h3
      have hnd2 := hnd'
      rw [List.nodup_append] at hnd2
      have hi1 : ∀ x ∈ us1, decide (x ≠ i) = true := by
        intro x hx; simpa using fun hxi : x = i => hnd2.2.2 x hx i (by simp) hxi
      have hi2 : ∀ x ∈ us2, decide (x ≠ i) = true := by
        intro x hx
        have := (List.nodup_cons.1 hnd2.2.1).1
        simp only [decide_eq_true_eq]
        rintro rfl
        exact this hx
      have e5 : (us1 ++ i :: us2).filter (fun x => decide (x ≠ i)) = us1 ++ us2 := by
        rw [List.filter_append, List.filter_eq_self.2 hi1, List.filter_cons_of_neg (by simp), List.filter_eq_self.2 hi2]
      have e6 : [a, b].filter (fun x => decide (x ≠ i)) = [a, b] := by simp [ha, hb]
      rw [e5, e6] at h4
      exact h4

/-- The tasks `d`, the last one first, can have been executed in this order. -/
def ValidD (ts : List (Task1 α)) : List Nat → Prop
  | [] => True
  | i :: d => ValidD ts d ∧ i ∉ d ∧ ∃ t, ts[i]? = some t ∧ ∀ j u, j < i → ts[j]? = some u → u.Waits t → j ∈ d

/-- Task number `i`. -/
def nth (ts : List (Task1 α)) (i : Nat) : Task1 α := ts.getD i ⟨"", [], (0, 0), .RW, fun _ b => .ok b⟩

theorem nth_of {ts : List (Task1 α)} {i : Nat} {t : Task1 α} (h : ts[i]? = some t) : nth ts i = t := by
  simp [nth, List.getD_eq_getElem?_getD, h]

theorem map_nth (ts : List (Task1 α)) : (List.range ts.length).map (nth ts) = ts := by
  apply List.ext_getElem
  · simp
  · intro i h1 h2
    simp only [List.getElem_map, List.getElem_range]
    exact nth_of (List.getElem?_eq_getElem h2)

theorem ValidD.nodup {ts : List (Task1 α)} : ∀ {d : List Nat}, ValidD ts d → d.Nodup
  | [], _ => List.nodup_nil
  | _ :: _, h => List.nodup_cons.2 ⟨h.2.1, h.1.nodup⟩

theorem ValidD.lt {ts : List (Task1 α)} : ∀ {d : List Nat}, ValidD ts d → ∀ i ∈ d, i < ts.length
  | [], _, _, h => absurd h (by simp)
  | j :: d, h, i, hi => by
    obtain ⟨hd, -, t, ht, -⟩ := h
    rcases List.mem_cons.1 hi with rfl | hi
    · exact (List.getElem?_eq_some_iff.1 ht).1
    · exact hd.lt i hi

theorem ValidD.before {ts : List (Task1 α)} : ∀ {d : List Nat}, ValidD ts d → ∀ i j, i < j → j ∈ d → (nth ts i).Waits (nth ts j) → i ∈ d ∧ [i, j].Sublist d.reverse
  | [], _, _, _, _, h, _ => absurd h (by simp)
  | k :: d, h, i, j, hij, hj, hw => by
    obtain ⟨hd, hk, t, ht, hp⟩ := h
    rcases List.mem_cons.1 hj with rfl | hj
    · have hi : i < ts.length := lt_trans hij (List.getElem?_eq_some_iff.1 ht).1
      have := hp i (nth ts i) hij (by rw [nth_of (List.getElem?_eq_getElem hi)]; exact List.getElem?_eq_getElem hi) (by rw [← nth_of ht]; exact hw)
      refine ⟨List.mem_cons_of_mem _ this, ?_⟩
      rw [List.reverse_cons]
      exact (List.singleton_sublist.2 (List.mem_reverse.2 this)).append (List.Sublist.refl [j])
    · obtain ⟨h1, h2⟩ := hd.before i j hij hj hw
      refine ⟨List.mem_cons_of_mem _ h1, ?_⟩
      rw [List.reverse_cons]
      exact h2.trans (List.sublist_append_left _ _)

/-- What has been executed so far can be executed sequentially in this order. -/
theorem ValidD.prefix {ts : List (Task1 α)} {d : List Nat} (h : ValidD ts d) {s s' : Store α} (hs : RunG K ts s s') :
    ∃ a, RunG K (d.reverse.map (nth ts)) s a ∧ RunG K (((List.range ts.length).filter (fun i => decide (i ∉ d))).map (nth ts)) a s' := by
  have hp : (d.reverse ++ (List.range ts.length).filter (fun i => decide (i ∉ d))).Perm (List.range ts.length) := by
    refine (List.perm_ext_iff_of_nodup ?_ List.nodup_range).2 (fun i => ?_)
    · refine List.nodup_append.2 ⟨(List.reverse_perm _).symm.nodup h.nodup, List.nodup_range.filter _, fun a ha b hb e => ?_⟩
      subst e
      simp at ha hb
      exact hb.2 ha
    · have := h.lt i
      simp only [List.mem_append, List.mem_reverse, List.mem_filter, List.mem_range, decide_eq_true_eq]
      tauto
  have := RunG.schedule (K := K) (nth ts) List.nodup_range hp ?_ (s := s) (s' := s') (by rw [map_nth]; exact hs)
  · rwa [List.map_append, RunG.append] at this
  · intro i j hij hw
    have hi : i ∈ List.range ts.length := hij.subset (by simp)
    have hj : j ∈ List.range ts.length := hij.subset (by simp)
    have hlt : i < j := by
      have := List.Pairwise.sublist hij (List.pairwise_lt_range)
      simpa using this
    by_cases c : j ∈ d
    · exact (h.before i j hlt c hw).2.trans (List.sublist_append_left _ _)
    · by_cases c' : i ∈ d
      · exact (List.singleton_sublist.2 (List.mem_reverse.2 c')).append (List.singleton_sublist.2 (List.mem_filter.2 ⟨hj, by simpa using c⟩))
      · refine List.Sublist.trans ?_ (List.sublist_append_right _ _)
        have := hij.filter (fun i => decide (i ∉ d))
        simpa [c, c'] using this

/-! ### The invariant -/

/-- The tile with its replicas stands for the contents `a`. -/
def Rel (K : Reduction α) (m : Buf α) (reps : List (Buf α)) (a : Buf α) : Prop :=
  ∃ gs : List K.G, reps = gs.map (fun g => K.act g (K.zero m.size)) ∧ a = gs.foldr K.act m ∧ (gs ≠ [] → K.D m)

theorem Rel.nil {K : Reduction α} {m a : Buf α} : Rel K m [] a ↔ a = m := by
  constructor
  · rintro ⟨gs, h, e, -⟩
    cases List.map_eq_nil_iff.1 h.symm
    exact e
  · rintro rfl
    exact ⟨[], rfl, rfl, fun h => absurd rfl h⟩

theorem Reduction.foldr_act (K : Reduction α) (g : K.G) (gs : List K.G) (b : Buf α) : gs.foldr K.act (K.act g b) = K.act g (gs.foldr K.act b) := by
  induction gs with
  | nil => rfl
  | cons g' gs ih => rw [List.foldr_cons, List.foldr_cons, ih, K.act_comm]

theorem Reduction.foldr_middle (K : Reduction α) (g : K.G) (l l' : List K.G) (b : Buf α) : (l ++ g :: l').foldr K.act b = K.act g ((l ++ l').foldr K.act b) := by
  rw [List.foldr_append, List.foldr_cons, K.foldr_act, List.foldr_append]

theorem Reduction.foldr_size (K : Reduction α) (gs : List K.G) (b : Buf α) : (gs.foldr K.act b).size = b.size := by
  induction gs with
  | nil => rfl
  | cons g gs ih => rw [List.foldr_cons, K.act_size, ih]

theorem split_map {A B : Type} {f : A → B} {gs : List A} {l l' : List B} {b : B} (h : l ++ b :: l' = gs.map f) :
    ∃ k g k', gs = k ++ g :: k' ∧ l = k.map f ∧ b = f g ∧ l' = k'.map f := by
  obtain ⟨k, r, rfl, rfl, h'⟩ := List.map_eq_append_iff.1 h.symm
  obtain ⟨g, k', rfl, rfl, rfl⟩ := List.map_eq_cons_iff.1 h'
  exact ⟨k, g, k', rfl, rfl, rfl, rfl⟩

/-- The executed tasks, executed sequentially, give contents for which the tiles with their replicas stand. -/
def RInv (ts : List (Task1 α)) (K : Handle → Reduction α) (s : Store α) (σ : RState α) : Prop :=
  ValidD ts σ.done ∧ ∃ a, RunG K (σ.done.reverse.map (nth ts)) s a ∧ ∀ h, Rel (K h) (σ.main h) (σ.reps h) (a h)

theorem RInv.start (ts : List (Task1 α)) (K : Handle → Reduction α) (s : Store α) : RInv ts K s ⟨s, fun _ => [], []⟩ :=
  ⟨trivial, s, rfl, fun _ => Rel.nil.2 rfl⟩

/-- The next task, executed sequentially. -/
theorem RInv.next {ts : List (Task1 α)} {s s' : Store α} (hs : RunG K ts s s') {σ : RState α} {i : Nat} {t : Task1 α} (e : σ.Enabled ts i t) (h : ValidD ts σ.done)
    {a : Store α} (ha : RunG K (σ.done.reverse.map (nth ts)) s a) : ValidD ts (i :: σ.done) ∧ ∃ a', RunG K ((i :: σ.done).reverse.map (nth ts)) s a' ∧ Ex K t a a' := by
  have hv : ValidD ts (i :: σ.done) := ⟨h, e.2.1, t, e.1, e.2.2.1⟩
  obtain ⟨a', h1, -⟩ := hv.prefix hs
  refine ⟨hv, a', h1, ?_⟩
  rw [List.reverse_cons, List.map_append, RunG.append] at h1
  obtain ⟨a1, h2, a2, h3, h4⟩ := h1
  cases h2.det ha
  cases h4
  rwa [nth_of e.1] at h3

theorem reads_eq {σ : RState α} {a : Store α} (hR : ∀ h, Rel (K h) (σ.main h) (σ.reps h) (a h)) {l : List Handle} (hl : ∀ h ∈ l, σ.reps h = []) : l.map a = l.map σ.main :=
  List.map_congr_left (fun h hh => by
    have := hR h
    rw [hl h hh] at this
    exact Rel.nil.1 this)

/-- No step fails, and the invariant is kept. -/
theorem RInv.step {ts : List (Task1 α)} {s s' : Store α} (hs : RunG K ts s s') {σ : RState α} (hi : RInv ts K s σ) {r : M (RState α)}
    (e : RStep ts (fun h => (K h).cl) σ r) : ∃ σ', r = .ok σ' ∧ RInv ts K s σ' := by
  obtain ⟨hv, a, ha, hR⟩ := hi
  cases e with
  | plain e hm hr =>
    rename_i i t
    obtain ⟨hv', a', ha', he, -⟩ := RInv.next hs e hv ha
    have hout : a t.out = σ.main t.out := by
      have := hR t.out
      rw [hr] at this
      exact Rel.nil.1 this
    obtain ⟨n, b, f, rfl⟩ := Task1.exec_iff.1 he
    have hview : a.view (t.out, t.mode) = σ.main.view (t.out, t.mode) := by
      simp only [Store.view, hout]
    rw [reads_eq hR e.2.2.2, hview] at f
    rw [Task1.exec_iff.2 ⟨n, b, f, rfl⟩]
    refine ⟨_, rfl, hv', _, ha', fun h => ?_⟩
    by_cases c : h = t.out
    · subst c
      simp only [RState.withDone, if_true, hr]
      exact Rel.nil.2 rfl
    · simp only [RState.withDone, if_neg c]
      exact hR h
  | onTile e hm =>
    rename_i i t
    obtain ⟨hv', a', ha', he, hg⟩ := RInv.next hs e hv ha
    obtain ⟨n, b, f, rfl⟩ := Task1.exec_iff.1 he
    obtain ⟨hD, g, hg⟩ := hg hm
    obtain ⟨gs, h1, h2, h3⟩ := hR t.out
    have hv1 : ∀ s : Store α, s.view (t.out, t.mode) = s t.out := fun s => by rw [hm]; rfl
    rw [hv1, hg _ rfl hD] at f
    have f := (Except.ok.inj f).symm
    have hsz : (a t.out).size = (σ.main t.out).size := by rw [h2, (K t.out).foldr_size]
    have hDm : (K t.out).D (σ.main t.out) := by
      by_cases c : gs = []
      · subst c
        rw [h2] at hD
        exact hD
      · exact h3 c
    have k := hg (σ.main t.out) hsz.symm hDm
    rw [reads_eq hR e.2.2.2] at k
    rw [Task1.exec_iff.2 ⟨n, _, (by rw [hv1]; exact k), rfl⟩]
    refine ⟨_, rfl, hv', _, ha', fun h => ?_⟩
    by_cases c : h = t.out
    · subst c
      simp only [RState.withDone, if_true]
      refine ⟨gs, by rw [h1, (K _).act_size], by rw [f, (K _).foldr_act, h2], fun _ => (K _).act_D _ _ hDm⟩
    · simp only [RState.withDone, if_neg c]
      exact hR h
  | onNew e hm =>
    rename_i i t
    obtain ⟨hv', a', ha', he, hg⟩ := RInv.next hs e hv ha
    obtain ⟨n, b, f, rfl⟩ := Task1.exec_iff.1 he
    obtain ⟨hD, g, hg⟩ := hg hm
    obtain ⟨gs, h1, h2, h3⟩ := hR t.out
    have hv1 : ∀ s : Store α, s.view (t.out, t.mode) = s t.out := fun s => by rw [hm]; rfl
    rw [hv1, hg _ rfl hD] at f
    have f := (Except.ok.inj f).symm
    have hsz : (a t.out).size = (σ.main t.out).size := by rw [h2, (K t.out).foldr_size]
    have hDm : (K t.out).D (σ.main t.out) := by
      by_cases c : gs = []
      · subst c
        rw [h2] at hD
        exact hD
      · exact h3 c
    have k := hg ((K t.out).zero (σ.main t.out).size) (by rw [(K _).zero_size, hsz]) ((K _).zero_D _)
    rw [reads_eq hR e.2.2.2] at k
    rw [(K t.out).init_ok, M.bind_ok, k, M.bind_ok]
    refine ⟨_, rfl, hv', _, ha', fun h => ?_⟩
    by_cases c : h = t.out
    · subst c
      simp only [RState.withDone, RState.withReps, if_true]
      refine ⟨g :: gs, by rw [h1, List.map_cons], by rw [f, List.foldr_cons, h2], fun _ => hDm⟩
    · simp only [RState.withDone, RState.withReps, if_neg c]
      exact hR h
  | onReplica e hm hr =>
    rename_i i t l l' c0
    obtain ⟨hv', a', ha', he, hg⟩ := RInv.next hs e hv ha
    obtain ⟨n, b, f, rfl⟩ := Task1.exec_iff.1 he
    obtain ⟨hD, g, hg⟩ := hg hm
    obtain ⟨gs, h1, h2, h3⟩ := hR t.out
    have hv1 : ∀ s : Store α, s.view (t.out, t.mode) = s t.out := fun s => by rw [hm]; rfl
    rw [hv1, hg _ rfl hD] at f
    have f := (Except.ok.inj f).symm
    have hsz : (a t.out).size = (σ.main t.out).size := by rw [h2, (K t.out).foldr_size]
    rw [hr] at h1
    obtain ⟨k1, g0, k2, rfl, rfl, rfl, rfl⟩ := split_map h1
    have k := hg ((K t.out).act g0 ((K t.out).zero (σ.main t.out).size)) (by rw [(K _).act_size, (K _).zero_size, hsz]) ((K _).act_D _ _ ((K _).zero_D _))
    rw [reads_eq hR e.2.2.2] at k
    rw [k, M.bind_ok]
    refine ⟨_, rfl, hv', _, ha', fun h => ?_⟩
    by_cases c : h = t.out
    · subst c
      simp only [RState.withDone, RState.withReps, if_true]
      refine ⟨k1 ++ (g + g0) :: k2, ?_, ?_, fun _ => h3 (by simp)⟩
      · rw [List.map_append, List.map_cons, (K _).act_add]
      · rw [f, h2, (K _).foldr_middle, (K _).foldr_middle, (K _).act_add]
    · simp only [RState.withDone, RState.withReps, if_neg c]
      exact hR h
  | merge hr =>
    rename_i h0 l l' c0
    obtain ⟨gs, h1, h2, h3⟩ := hR h0
    rw [hr] at h1
    obtain ⟨k1, g0, k2, rfl, rfl, rfl, rfl⟩ := split_map h1
    have hDm := h3 (by simp)
    rw [(K h0).merge_ok _ _ hDm, M.bind_ok]
    refine ⟨_, rfl, hv, a, ha, fun h => ?_⟩
    by_cases c : h = h0
    · subst c
      simp only [RState.withReps, RState.withMain, if_true]
      refine ⟨k1 ++ k2, by rw [List.map_append, (K _).act_size], ?_, fun _ => (K _).act_D _ _ hDm⟩
      rw [h2, (K _).foldr_middle, (K _).foldr_act]
    · simp only [RState.withReps, RState.withMain, if_neg c]
      exact hR h
  | mergeReplicas hr hd =>
    rename_i h0 l l' p p' c0 d0
    obtain ⟨gs, h1, h2, h3⟩ := hR h0
    rw [hr] at h1
    obtain ⟨k1, g0, k2, rfl, rfl, rfl, rfl⟩ := split_map h1
    rw [← List.map_append] at hd
    obtain ⟨q1, g1, q2, e1, rfl, rfl, rfl⟩ := split_map hd.symm
    have hDm := h3 (by simp)
    have hz : ((K h0).act g1 ((K h0).zero (σ.main h0).size)).size = (σ.main h0).size := by rw [(K _).act_size, (K _).zero_size]
    have := (K h0).merge_ok g0 ((K h0).act g1 ((K h0).zero (σ.main h0).size)) ((K _).act_D _ _ ((K _).zero_D _))
    rw [hz] at this
    rw [this, M.bind_ok]
    refine ⟨_, rfl, hv, a, ha, fun h => ?_⟩
    by_cases c : h = h0
    · subst c
      simp only [RState.withReps, if_true]
      refine ⟨q1 ++ (g0 + g1) :: q2, by rw [List.map_append, List.map_cons, (K _).act_add], ?_, fun _ => hDm⟩
      rw [h2, (K _).foldr_middle, e1, (K _).foldr_middle, (K _).foldr_middle, (K _).act_add]
    · simp only [RState.withReps, if_neg c]
      exact hR h

theorem RReach.inv {ts : List (Task1 α)} {s s' : Store α} (hs : RunG K ts s s') {σ : RState α} (h : RReach ts (fun h => (K h).cl) s σ) : RInv ts K s σ := by
  induction h with
  | start => exact RInv.start ts K s
  | step _ e ih =>
    obtain ⟨σ', e', h⟩ := ih.step hs e
    cases Except.ok.inj e'
    exact h

/-- At the end, the contents are those of the sequential execution. -/
theorem RInv.final {ts : List (Task1 α)} {s s' : Store α} (hs : RunG K ts s s') {σ : RState α} (hi : RInv ts K s σ) (hf : σ.Final ts) : σ.main = s' := by
  obtain ⟨hv, a, ha, hR⟩ := hi
  obtain ⟨a', h1, h2⟩ := hv.prefix hs
  cases h1.det ha
  have : (List.range ts.length).filter (fun i => decide (i ∉ σ.done)) = [] := by
    rw [List.filter_eq_nil_iff]
    intro i hi
    simpa using hf.1 i (List.mem_range.1 hi)
  rw [this] at h2
  cases h2
  funext h
  have := hR h
  rw [hf.2 h] at this
  exact (Rel.nil.1 this).symm

/-- Unless all is done, a step is possible. -/
theorem RState.progress (ts : List (Task1 α)) (R : Handle → ReduxCl α) (σ : RState α) : σ.Final ts ∨ ∃ r, RStep ts R σ r := by
  classical
  by_cases h1 : ∃ h, σ.reps h ≠ []
  · obtain ⟨h, hh⟩ := h1
    obtain ⟨c, l, e⟩ := List.exists_cons_of_ne_nil hh
    exact .inr ⟨_, .merge (l := []) e⟩
  · have h1 : ∀ h, σ.reps h = [] := by simpa using h1
    by_cases h2 : ∀ i, i < ts.length → i ∈ σ.done
    · exact .inl ⟨h2, h1⟩
    · have h2 : ∃ i, i < ts.length ∧ i ∉ σ.done := by simpa using h2
      have hsp := Nat.find_spec h2
      have hmin : ∀ j, j < Nat.find h2 → j ∈ σ.done := fun j hj => by
        have := Nat.find_min h2 hj
        have hjn := hsp.1
        by_contra c
        exact this ⟨by omega, c⟩
      have e : σ.Enabled ts (Nat.find h2) ts[Nat.find h2] := ⟨List.getElem?_eq_getElem hsp.1, hsp.2, fun j _ hj _ _ => hmin j hj, fun h _ => h1 h⟩
      by_cases hm : (ts[Nat.find h2]).mode = .REDUX
      · exact .inr ⟨_, .onTile e hm⟩
      · exact .inr ⟨_, .plain e hm (h1 _)⟩

end NNTile
