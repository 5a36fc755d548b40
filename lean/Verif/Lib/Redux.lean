import Verif.Spec.Redux
import Verif.Lib.Reduce
import Verif.Lib.Maxsumexp
import Mathlib.Algebra.BigOperators.Group.List.Basic
import Mathlib.Data.List.Perm.Basic
/-!
# Executions with replicas: general part
-/
namespace NNTile
variable {α : Type} {G : Type} [AddCommMonoid G]

/-- The codelets of `R` implement zero and addition of the quantity `g` represented by a buffer of size `N`. -/
structure ReduxCl.Sound (R : ReduxCl α) (Rep : Buf α → G → Prop) (N : Nat) : Prop where
  size : ∀ {b g}, Rep b g → b.size = N
  init : ∃ b, R.init (Buf.undef N) = .ok b ∧ Rep b 0
  merge : ∀ {b g c k}, Rep b g → Rep c k → ∃ b', R.merge c b = .ok b' ∧ Rep b' (g + k)

/-- Task `t` adds `w`. -/
def AddsTo (Rep : Buf α → G → Prop) (s : Store α) (t : Task1 α) (w : G) : Prop :=
  ∀ {b g}, Rep b g → ∃ b', t.fn (t.reads.map s) b = .ok b' ∧ Rep b' (g + w)

variable {R : ReduxCl α} {Rep : Buf α → G → Prop} {N : Nat} {s : Store α}

theorem forall₂_split {A B : Type} {P : A → B → Prop} {l l' : List A} {ws : List B} (h : List.Forall₂ P (l ++ l') ws) :
    ∃ w w', ws = w ++ w' ∧ List.Forall₂ P l w ∧ List.Forall₂ P l' w' := by
  induction l generalizing ws with
  | nil => exact ⟨[], ws, rfl, .nil, h⟩
  | cons a l ih =>
    cases h with
    | cons h1 h2 =>
      obtain ⟨w, w', rfl, h3, h4⟩ := ih h2
      exact ⟨_ :: w, w', rfl, .cons h1 h3, h4⟩

theorem RTree.eval_rep (hR : R.Sound Rep N) {b : Buf α} {g : G} (hb : Rep b g) (T : RTree α) {ws : List G}
    (h : List.Forall₂ (AddsTo Rep s) T.tasks ws) : ∃ b', T.eval R s b = .ok b' ∧ Rep b' (T.olds • g + ws.sum) := by
  induction T generalizing ws with
  | old =>
    cases h
    exact ⟨b, rfl, by simpa [RTree.olds] using hb⟩
  | init =>
    cases h
    obtain ⟨b0, e, h0⟩ := hR.init
    exact ⟨b0, by rw [RTree.eval, hR.size hb, e], by simpa [RTree.olds] using h0⟩
  | task r t ih =>
    cases h with
    | cons h1 h2 =>
      obtain ⟨c, e, hc⟩ := ih h2
      obtain ⟨b', e', hb'⟩ := h1 hc
      refine ⟨b', by rw [RTree.eval, e, M.bind_ok, e'], ?_⟩
      rw [List.sum_cons, RTree.olds, add_comm _ (List.sum _), ← add_assoc]
      exact hb'
  | merge d r ihd ihr =>
    rw [RTree.tasks] at h
    obtain ⟨w, w', rfl, h1, h2⟩ := forall₂_split h
    obtain ⟨b1, e1, q1⟩ := ihd h1
    obtain ⟨b2, e2, q2⟩ := ihr h2
    obtain ⟨b', e', hb'⟩ := hR.merge q1 q2
    refine ⟨b', by rw [RTree.eval, e1, M.bind_ok, e2, M.bind_ok, e'], ?_⟩
    rw [RTree.olds, add_smul, List.sum_append, add_add_add_comm]
    exact hb'

theorem RTree.eval_group (hR : R.Sound Rep N) {b : Buf α} {g : G} (hb : Rep b g) {T : RTree α} {ts : List (Task1 α)} {ws : List G}
    (hp : T.tasks.Perm ts) (ho : T.olds = 1) (h : List.Forall₂ (AddsTo Rep s) ts ws) :
    ∃ b', T.eval R s b = .ok b' ∧ Rep b' (g + ws.sum) := by
  obtain ⟨ws', h1, h2⟩ := List.perm_comp_forall₂ hp h
  obtain ⟨b', e, hb'⟩ := RTree.eval_rep hR hb T h1
  refine ⟨b', e, ?_⟩
  rwa [ho, one_smul, h2.sum_eq] at hb'

theorem Plan.run_rep (hR : R.Sound Rep N) {b : Buf α} {g : G} (hb : Rep b g) {p : Plan α} {ts : List (Task1 α)} {ws : List G}
    (hp : p.Of ts) (hm : ∀ t ∈ ts, t.mode ≠ .W) (h : List.Forall₂ (AddsTo Rep s) ts ws) :
    ∃ b', p.run R s b = .ok b' ∧ Rep b' (g + ws.sum) := by
  induction p generalizing b g ts ws with
  | done =>
    obtain rfl : ts = [] := hp
    cases h
    exact ⟨b, rfl, by simpa using hb⟩
  | one t p ih =>
    obtain ⟨-, ts', rfl, hp⟩ := hp
    cases h with
    | cons h1 h2 =>
      obtain ⟨c, e, hc⟩ := h1 hb
      obtain ⟨b', e', hb'⟩ := ih hc hp (fun t ht => hm t (by simp [ht])) h2
      refine ⟨b', ?_, by rwa [List.sum_cons, ← add_assoc]⟩
      have := hm t (by simp)
      rw [Plan.run]
      split
      · next h => exact absurd h this
      · rw [e, M.bind_ok, e']
  | group T p ih =>
    obtain ⟨g', ts', rfl, -, hperm, -, ho, hp⟩ := hp
    obtain ⟨w, w', rfl, h1, h2⟩ := forall₂_split h
    obtain ⟨c, e, hc⟩ := RTree.eval_group hR hb hperm ho h1
    obtain ⟨b', e', hb'⟩ := ih hc hp (fun t ht => hm t (by simp [ht])) h2
    refine ⟨b', by rw [Plan.run, e, M.bind_ok, e'], ?_⟩
    rwa [List.sum_append, ← add_assoc]

/-- The usual situation: one first task, which may be special, and then accumulating tasks. -/
theorem Plan.run_cons (hR : R.Sound Rep N) {b : Buf α} {g : G} {t : Task1 α} {p : Plan α} {ts : List (Task1 α)} {ws : List G}
    (hp : p.Of (t :: ts)) (hm : ∀ t ∈ ts, t.mode ≠ .W) (h : List.Forall₂ (AddsTo Rep s) ts ws)
    (h0 : (t.mode ≠ .REDUX ∧ ∃ b1, t.fn (t.reads.map s) (t.inp b) = .ok b1 ∧ Rep b1 g) ∨
      (t.mode ≠ .W ∧ ∃ g0 w0, Rep b g0 ∧ AddsTo Rep s t w0 ∧ g = g0 + w0)) :
    ∃ b', p.run R s b = .ok b' ∧ Rep b' (g + ws.sum) := by
  rcases h0 with ⟨hne, b1, e, hb1⟩ | ⟨hne, g0, w0, hb, hw, rfl⟩
  · cases p with
    | done => exact absurd hp (by simp [Plan.Of])
    | one t' p =>
      obtain ⟨-, ts', he, hp⟩ := hp
      cases he
      obtain ⟨b', e', hb'⟩ := Plan.run_rep hR hb1 hp hm h
      refine ⟨b', ?_, hb'⟩
      rw [Plan.run]
      unfold Task1.inp at e
      split
      · next h => rw [h, if_pos rfl] at e; rw [e, M.bind_ok, e']
      · next h => rw [if_neg h] at e; rw [e, M.bind_ok, e']
    | group T p =>
      obtain ⟨g', ts', he, hg, hperm, hr, ho, hp⟩ := hp
      cases g' with
      | nil => exact absurd rfl hg
      | cons u g' =>
        cases he
        exact absurd (hr t (by simp)) hne
  · obtain ⟨b', e', hb'⟩ := Plan.run_rep hR hb hp (by intro u hu; rcases List.mem_cons.1 hu with rfl | hu; exacts [hne, hm u hu])
      (List.Forall₂.cons hw h)
    exact ⟨b', e', by rwa [List.sum_cons, ← add_assoc] at hb'⟩

/-- From tiles to the tensor. -/
theorem computesRedux_tensor {dst : Tensor} (hd : dst.Ready s) {async : M (List (Task1 α))} {ts : List (Task1 α)} (he : async = .ok ts)
    (v : List Nat → α) (houts : ∀ t ∈ ts, ∃ i, i < dst.ntiles ∧ t.out = (dst.id, i)) (hreads : ∀ t ∈ ts, ∀ h ∈ t.reads, h.1 ≠ dst.id)
    (hplan : ∀ t, InBox dst.grid t → ∀ p : Plan α, p.Of (ts.filter (fun u => u.out = (dst.id, lin dst.grid t))) →
      ∃ b', p.run R s (s (dst.id, lin dst.grid t)) = .ok b' ∧ b'.size = (dst.tshape t).prod ∧
        ∀ l, InBox (dst.tshape t) l → b'.data (lin (dst.tshape t) l) = some (v (globIdx dst.basetile t l))) :
    ComputesRedux R async s dst v := by
  refine ⟨ts, he, ?_, fun P hP => ?_⟩
  · intro t ht r hr u hu e
    obtain ⟨i, -, h⟩ := houts u hu
    exact hreads t ht r hr (by rw [← e, h])
  · have h1 : ∀ i, i < dst.ntiles → ∃ b', (P (dst.id, i)).run R s (s (dst.id, i)) = .ok b' ∧ b'.size = (dst.tshapeL i).prod ∧
        ∀ l, InBox (dst.tshapeL i) l → b'.data (lin (dst.tshapeL i) l) = some (v (globIdx dst.basetile (dst.tindex i) l)) := by
      intro i hi
      have := hplan (dst.tindex i) (dst.tindex_inBox i) (P (dst.id, i)) (by rw [Tensor.lin_tindex hi]; exact hP _)
      rw [Tensor.lin_tindex hi] at this
      exact this
    choose! fin hfin using h1
    refine ⟨fun h => if h.1 = dst.id ∧ h.2 < dst.ntiles then fin h.2 else s h, ?_, ⟨hd.1, ?_⟩, ?_, ?_⟩
    · intro h
      by_cases hc : h.1 = dst.id ∧ h.2 < dst.ntiles
      · simp only [hc, and_self, if_true]
        obtain ⟨a, i⟩ := h
        obtain ⟨h1, h2⟩ := hc
        simp only at h1 h2
        subst h1
        exact (hfin i h2).1
      · simp only [hc, if_false]
        have hnil : ts.filter (fun t => t.out = h) = [] := by
          rw [List.filter_eq_nil_iff]
          intro u hu
          obtain ⟨i, hi, h'⟩ := houts u hu
          simp only [decide_eq_true_eq]
          rintro rfl
          exact hc ⟨by rw [h'], by rw [h']; exact hi⟩
        have hp := hP h
        rw [hnil] at hp
        cases hPh : P h with
        | done => rfl
        | one t p => rw [hPh] at hp; obtain ⟨-, _, h, -⟩ := hp; cases h
        | group T p =>
          rw [hPh] at hp
          obtain ⟨g, ts', h, hg, -⟩ := hp
          exact absurd (List.append_eq_nil_iff.1 h.symm).1 hg
    · intro i hi
      simp only [hi, and_self, if_true]
      exact (hfin i hi).2.1
    · intro I hI
      have hti := hd.1.tileIdx_inBox hI
      have hli := hd.1.locIdx_inBox hI
      have hlt : lin dst.grid (tileIdx dst.basetile I) < dst.ntiles := lin_lt hti
      have hx := (hfin _ hlt).2.2 (locIdx dst.basetile I)
      simp only [Tensor.tshapeL, Tensor.tindex_lin hti] at hx
      have := hx hli
      rw [globIdx_tile_loc (by rw [hI.length, hd.1.2.2])] at this
      simp only [Tensor.get, Tensor.hOf, Tensor.oOf, hlt, and_self, if_true, this]
    · intro h hh
      simp only [List.mem_singleton] at hh
      simp [hh]

/-- A loop over the tiles of `dst` that submits, for tile `t`, the tasks `gt t`. -/
theorem computesRedux_tiles {dst : Tensor} (hd : dst.Ready s) {async : M (List (Task1 α))} (gt : List Nat → List (Task1 α))
    (he : async = .ok ((List.range dst.ntiles).flatMap (fun i => gt (dst.tindex i)))) (v : List Nat → α)
    (hout : ∀ t, InBox dst.grid t → ∀ u ∈ gt t, u.out = (dst.id, lin dst.grid t) ∧ ∀ r ∈ u.reads, r.1 ≠ dst.id)
    (hplan : ∀ t, InBox dst.grid t → ∀ p : Plan α, p.Of (gt t) →
      ∃ b', p.run R s (s (dst.id, lin dst.grid t)) = .ok b' ∧ b'.size = (dst.tshape t).prod ∧
        ∀ l, InBox (dst.tshape t) l → b'.data (lin (dst.tshape t) l) = some (v (globIdx dst.basetile t l))) :
    ComputesRedux R async s dst v := by
  refine computesRedux_tensor hd he v ?_ ?_ ?_
  · intro u hu
    simp only [List.mem_flatMap, List.mem_range] at hu
    obtain ⟨i, hi, h⟩ := hu
    exact ⟨i, hi, by rw [(hout _ (dst.tindex_inBox i) u h).1, Tensor.lin_tindex hi]⟩
  · intro u hu
    simp only [List.mem_flatMap, List.mem_range] at hu
    obtain ⟨i, hi, h⟩ := hu
    exact (hout _ (dst.tindex_inBox i) u h).2
  · intro t ht p hp
    have hlt : lin dst.grid t < dst.ntiles := lin_lt ht
    rw [filter_flatMap_unique (lin dst.grid t) hlt] at hp
    · rw [List.filter_eq_self.2, Tensor.tindex_lin ht] at hp
      · exact hplan t ht p hp
      · intro u hu
        rw [Tensor.tindex_lin ht] at hu
        simp [(hout _ ht u hu).1]
    · intro j hj hji u hu
      have := (hout _ (dst.tindex_inBox j) u hu).1
      rw [Tensor.lin_tindex hj] at this
      simp [this, hji]

/-! ### Comparison with sequential execution -/

/-- Sequential execution as a plan. -/
def Plan.seq : List (Task1 α) → Plan α
  | [] => .done
  | t :: ts => if t.mode = .REDUX then .group (.task .old t) (Plan.seq ts) else .one t (Plan.seq ts)

theorem Plan.seq_of (ts : List (Task1 α)) : (Plan.seq ts).Of ts := by
  induction ts with
  | nil => rfl
  | cons t ts ih =>
    rw [Plan.seq]
    split
    · next h => exact ⟨[t], ts, rfl, by simp, by simp [RTree.tasks], by simpa using h, rfl, ih⟩
    · next h => exact ⟨h, ts, rfl, ih⟩

omit [AddCommMonoid G] in
theorem Plan.seq_run (ts : List (Task1 α)) (b : Buf α) : (Plan.seq ts).run R s b = foldBuf s ts b := by
  induction ts generalizing b with
  | nil => rfl
  | cons t ts ih =>
    rw [Plan.seq, foldBuf]
    split
    · next h =>
      rw [Plan.run, RTree.eval, RTree.eval, M.bind_ok, Task1.inp, if_neg (by simp [h])]
      congr 1
      funext b
      exact ih b
    · next h =>
      rw [Plan.run, Task1.inp]
      split
      · next h' =>
        rw [if_pos h']
        congr 1
        funext b
        exact ih b
      · next h' =>
        rw [if_neg h']
        congr 1
        funext b
        exact ih b

/-- The tasks `L` on a tile of size `N` with contents `b` accumulate: the first one may be special, the others add something, and what a buffer
represents determines its contents. -/
def Reduces (R : ReduxCl α) (s : Store α) (N : Nat) (b : Buf α) (L : List (Task1 α)) : Prop :=
  ∃ (G : Type) (_ : AddCommMonoid G) (Rep : Buf α → G → Prop) (g : G) (t : Task1 α) (ts : List (Task1 α)) (ws : List G),
    L = t :: ts ∧ R.Sound Rep N ∧ (∀ u ∈ ts, u.mode ≠ .W) ∧ List.Forall₂ (AddsTo Rep s) ts ws ∧
    ((t.mode ≠ .REDUX ∧ ∃ b1, t.fn (t.reads.map s) (t.inp b) = .ok b1 ∧ Rep b1 g) ∨
      (t.mode ≠ .W ∧ ∃ g0 w0, Rep b g0 ∧ AddsTo Rep s t w0 ∧ g = g0 + w0)) ∧
    ∀ c c' : Buf α, Rep c (g + ws.sum) → Rep c' (g + ws.sum) → ∀ j, j < N → c.data j = c'.data j

omit [AddCommMonoid G] in
theorem Reduces.agree {b : Buf α} {L : List (Task1 α)} (h : Reduces R s N b L) :
    ∃ b0, foldBuf s L b = .ok b0 ∧ ∀ p : Plan α, p.Of L → ∃ b', p.run R s b = .ok b' ∧ b'.size = N ∧ ∀ j, j < N → b'.data j = b0.data j := by
  obtain ⟨G, _, Rep, g, t, ts, ws, rfl, hR, hm, hw, h0, hdet⟩ := h
  obtain ⟨b0, e0, r0⟩ := Plan.run_cons hR (Plan.seq_of (t :: ts)) hm hw h0
  rw [Plan.seq_run] at e0
  refine ⟨b0, e0, fun p hp => ?_⟩
  obtain ⟨b', e, r⟩ := Plan.run_cons hR hp hm hw h0
  exact ⟨b', e, hR.size r, hdet _ _ r r0⟩

omit [AddCommMonoid G] in
/-- If the tasks of every tile accumulate, all executions give what sequential execution gives. -/
theorem computesRedux_of_computes {dst : Tensor} (hd : dst.Ready s) {async : M (List (Task1 α))} {v : List Nat → α} (hC : Computes async s dst v)
    {ts : List (Task1 α)} (he : async = .ok ts) (houts : ∀ t ∈ ts, ∃ i, i < dst.ntiles ∧ t.out = (dst.id, i))
    (hreads : ∀ t ∈ ts, ∀ h ∈ t.reads, h.1 ≠ dst.id)
    (h : ∀ t, InBox dst.grid t → Reduces R s (dst.tshape t).prod (s (dst.id, lin dst.grid t)) (ts.filter (fun u => u.out = (dst.id, lin dst.grid t)))) :
    ComputesRedux R async s dst v := by
  have h1 : ∀ i, i < dst.ntiles → ∃ b0, foldBuf s (ts.filter (fun u => u.out = (dst.id, i))) (s (dst.id, i)) = .ok b0 ∧
      ∀ p : Plan α, p.Of (ts.filter (fun u => u.out = (dst.id, i))) → ∃ b', p.run R s (s (dst.id, i)) = .ok b' ∧ b'.size = (dst.tshapeL i).prod ∧
        ∀ j, j < (dst.tshapeL i).prod → b'.data j = b0.data j := by
    intro i hi
    have := (h (dst.tindex i) (dst.tindex_inBox i)).agree
    rw [Tensor.lin_tindex hi] at this
    exact this
  choose! fin hfin using h1
  obtain ⟨s', e1, e2, -⟩ := runAll1_tensor dst.id dst.ntiles fin houts hreads (fun i hi => (hfin i hi).1)
  obtain ⟨ts', s'', f1, f2, f3, -, f4⟩ := hC
  obtain rfl : ts = ts' := by rw [he] at f1; cases f1; rfl
  obtain rfl : s' = s'' := by rw [e1] at f2; cases f2; rfl
  refine computesRedux_tensor hd he v houts hreads ?_
  intro t ht p hp
  have hlt : lin dst.grid t < dst.ntiles := lin_lt ht
  obtain ⟨b', g1, g2, g3⟩ := (hfin _ hlt).2 p hp
  rw [Tensor.tshapeL_lin ht] at g2 g3
  refine ⟨b', g1, g2, fun l hl => ?_⟩
  rw [g3 _ (lin_lt hl), ← e2 _ hlt, ← hd.1.get_glob ht hl s']
  exact f3 _ (hd.1.glob ht hl).1

omit [AddCommMonoid G] in
/-- The same for a loop over the tiles of `dst`. -/
theorem computesRedux_of_tiles {dst : Tensor} (hd : dst.Ready s) {async : M (List (Task1 α))} {v : List Nat → α} (hC : Computes async s dst v)
    (gt : List Nat → List (Task1 α)) (he : async = .ok ((List.range dst.ntiles).flatMap (fun i => gt (dst.tindex i))))
    (hout : ∀ t, InBox dst.grid t → ∀ u ∈ gt t, u.out = (dst.id, lin dst.grid t) ∧ ∀ r ∈ u.reads, r.1 ≠ dst.id)
    (h : ∀ t, InBox dst.grid t → Reduces R s (dst.tshape t).prod (s (dst.id, lin dst.grid t)) (gt t)) :
    ComputesRedux R async s dst v := by
  refine computesRedux_of_computes hd hC he ?_ ?_ ?_
  · intro u hu
    simp only [List.mem_flatMap, List.mem_range] at hu
    obtain ⟨i, hi, h⟩ := hu
    exact ⟨i, hi, by rw [(hout _ (dst.tindex_inBox i) u h).1, Tensor.lin_tindex hi]⟩
  · intro u hu
    simp only [List.mem_flatMap, List.mem_range] at hu
    obtain ⟨i, hi, h⟩ := hu
    exact (hout _ (dst.tindex_inBox i) u h).2
  · intro t ht
    have hlt : lin dst.grid t < dst.ntiles := lin_lt ht
    rw [filter_flatMap_unique (lin dst.grid t) hlt]
    · rw [List.filter_eq_self.2, Tensor.tindex_lin ht]
      · exact h t ht
      · intro u hu
        rw [Tensor.tindex_lin ht] at hu
        simp [(hout _ ht u hu).1]
    · intro j hj hji u hu
      have := (hout _ (dst.tindex_inBox j) u hu).1
      rw [Tensor.lin_tindex hj] at this
      simp [this, hji]

end NNTile
