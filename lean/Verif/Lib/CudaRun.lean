import Verif.Spec.Cuda
import Verif.Lib.Core
import Mathlib.Order.PiLex
import Mathlib.Data.DFinsupp.WellFounded
import Mathlib.Data.List.Perm.Basic
/-! Threads without barriers that write disjoint locations: all interleavings give the result of a sequential execution. -/
namespace NNTile
variable {α : Type} [FP α]

/-! ### Memory -/

theorem Buf.rd_wr_ne {b b' : Buf α} {i j : Nat} {v : α} (h : b.wr i v = .ok b') (hn : j ≠ i) : b'.rd j = b.rd j := by
  unfold Buf.wr at h
  split at h
  · cases h
    simp [Buf.rd, hn]
  · cases h

theorem Buf.rd_wr_eq {b b' : Buf α} {i : Nat} {v : α} (h : b.wr i v = .ok b') : b'.rd i = .ok v := by
  unfold Buf.wr at h
  split at h
  · next hi =>
    cases h
    simp [Buf.rd, hi]
  · cases h

theorem Mem.wr_ok {m m' : Mem α} {l : Loc} {v : α} (h : m.wr l v = .ok m') : ∃ b, (m l.1).wr l.2 v = .ok b ∧ m' = Function.update m l.1 b := by
  unfold Mem.wr at h
  obtain ⟨b, hb, h⟩ := M.bind_eq_ok.1 h
  cases h
  exact ⟨b, hb, rfl⟩

theorem Mem.rd_wr_ne {m m' : Mem α} {l l' : Loc} {v : α} (h : m.wr l v = .ok m') (hn : l' ≠ l) : m'.rd l' = m.rd l' := by
  obtain ⟨b, hb, rfl⟩ := Mem.wr_ok h
  unfold Mem.rd
  by_cases h1 : l'.1 = l.1
  · have h2 : l'.2 ≠ l.2 := fun h2 => hn (Prod.ext h1 h2)
    rw [h1, Function.update_self]
    exact Buf.rd_wr_ne hb h2
  · rw [Function.update_of_ne h1]

theorem Mem.rd_wr_eq {m m' : Mem α} {l : Loc} {v : α} (h : m.wr l v = .ok m') : m'.rd l = .ok v := by
  obtain ⟨b, hb, rfl⟩ := Mem.wr_ok h
  unfold Mem.rd
  rw [Function.update_self]
  exact Buf.rd_wr_eq hb

/-- Writes of different locations commute. -/
theorem Mem.wr_comm {m m1 m2 : Mem α} {l l' : Loc} {v v' : α} (hn : l ≠ l') (h1 : m.wr l v = .ok m1) (h2 : m1.wr l' v' = .ok m2) :
    ∃ m3, m.wr l' v' = .ok m3 ∧ m3.wr l v = .ok m2 := by
  obtain ⟨b, hb, rfl⟩ := Mem.wr_ok h1
  obtain ⟨b', hb', rfl⟩ := Mem.wr_ok h2
  unfold Buf.wr at hb hb'
  split at hb
  swap
  · cases hb
  next hi =>
  split at hb'
  swap
  · cases hb'
  next hi' =>
  cases hb
  cases hb'
  by_cases h : l'.1 = l.1
  · have hne : l'.2 ≠ l.2 := fun e => hn (Prod.ext h e).symm
    rw [h, Function.update_self] at hi'
    simp only [Mem.wr, Buf.wr, h, if_pos hi', M.bind_ok, Function.update_self]
    refine ⟨_, rfl, ?_⟩
    rw [Function.update_self]
    simp only [if_pos hi, M.bind_ok, Function.update_idem]
    congr 3
    funext j
    by_cases h1 : j = l.2
    · subst h1; simp [hne.symm]
    · by_cases h2 : j = l'.2 <;> simp [h1, h2, hne]
  · rw [Function.update_of_ne h] at hi'
    simp only [Mem.wr, Buf.wr, if_pos hi', M.bind_ok, Function.update_of_ne h]
    refine ⟨_, rfl, ?_⟩
    simp only [M.bind_ok, Function.update_of_ne (Ne.symm h), if_pos hi]
    rw [Function.update_comm (Ne.symm h)]

theorem Mem.wr_wr {m m1 m2 : Mem α} {l : Loc} {v v' : α} (h1 : m.wr l v = .ok m1) (h2 : m1.wr l v' = .ok m2) : m.wr l v' = .ok m2 := by
  obtain ⟨b, hb, rfl⟩ := Mem.wr_ok h1
  obtain ⟨b', hb', rfl⟩ := Mem.wr_ok h2
  unfold Buf.wr at hb hb'
  split at hb
  swap
  · cases hb
  next hi =>
  cases hb
  split at hb'
  swap
  · cases hb'
  next hi' =>
  cases hb'
  simp only [Mem.wr, Buf.wr, if_pos hi, M.bind_ok, Function.update_idem, Function.update_self]
  congr 3
  funext j
  by_cases h1 : j = l.2 <;> simp [h1]

/-- A location that can be written with one value can be written with any one. -/
theorem Mem.wr_any {m m1 : Mem α} {l : Loc} {v : α} (h1 : m.wr l v = .ok m1) (v' : α) : ∃ m2, m.wr l v' = .ok m2 ∧ m1.wr l v' = .ok m2 := by
  obtain ⟨b, hb, rfl⟩ := Mem.wr_ok h1
  unfold Buf.wr at hb
  split at hb
  swap
  · cases hb
  next hi =>
  cases hb
  simp only [Mem.wr, Buf.wr, if_pos hi, M.bind_ok, Function.update_idem, Function.update_self]
  refine ⟨_, rfl, ?_⟩
  congr 3
  funext j
  by_cases h1 : j = l.2 <;> simp [h1]

/-! ### Sequential execution of one thread -/

/-- The execution of a program alone. -/
def Prog.run : Prog α → Mem α → M (Mem α)
  | .done, m => .ok m
  | .rd l k, m => do
    let v ← m.rd l
    (k v).run m
  | .wr l v k, m => do
    let m ← m.wr l v
    k.run m
  | .atomicAdd l v k, m => do
    let x ← m.rd l
    let m ← m.wr l (x + v)
    k.run m
  | _, _ => .error (.ub "not sequential")

/-- Locations that a program may access: `own` alone, `free` cells are not written by anyone and have the contents of `m0`, `acc` cells are only accessed by atomic additions. -/
def Prog.Foot (m0 : Mem α) (own free acc : Loc → Prop) : Prog α → Prop
  | .done => True
  | .rd l k => (own l ∧ ∀ v, (k v).Foot m0 own free acc) ∨ (free l ∧ ∀ v, m0.rd l = .ok v → (k v).Foot m0 own free acc)
  | .wr l _ k => own l ∧ k.Foot m0 own free acc
  | .atomicAdd l _ k => (own l ∨ acc l) ∧ k.Foot m0 own free acc
  | _ => False

/-- A program does not change `free` locations. -/
theorem Prog.run_free {own free acc : Loc → Prop} {m0 : Mem α} (hd : ∀ l, own l ∨ acc l → ¬ free l) :
    ∀ (p : Prog α), p.Foot m0 own free acc → ∀ m, (∀ l, free l → m.rd l = m0.rd l) → ∀ m1, p.run m = .ok m1 → ∀ l, free l → m1.rd l = m0.rd l := by
  intro p
  induction p with
  | done => intro _ m hm m1 h; cases h; exact hm
  | rd l' k ih =>
    intro hf m hm m1 h
    simp only [Prog.run] at h
    obtain ⟨x, hx, h⟩ := M.bind_eq_ok.1 h
    have hfk : (k x).Foot m0 own free acc := by
      rcases hf with hf | hf
      · exact hf.2 x
      · exact hf.2 x (by rw [← hm l' hf.1]; exact hx)
    exact ih x hfk m hm m1 h
  | wr l' v' k ih =>
    intro hf m hm m1 h
    simp only [Prog.run] at h
    obtain ⟨ma, ha, h⟩ := M.bind_eq_ok.1 h
    refine ih hf.2 ma (fun l hl => ?_) m1 h
    rw [Mem.rd_wr_ne ha (by rintro rfl; exact hd _ (Or.inl hf.1) hl), hm _ hl]
  | atomicAdd l' v' k ih =>
    intro hf m hm m1 h
    simp only [Prog.run] at h
    obtain ⟨x, hx, h⟩ := M.bind_eq_ok.1 h
    obtain ⟨ma, ha, h⟩ := M.bind_eq_ok.1 h
    refine ih hf.2 ma (fun l hl => ?_) m1 h
    rw [Mem.rd_wr_ne ha (by rintro rfl; exact hd _ hf.1 hl), hm _ hl]
  | _ => intro hf; exact hf.elim

/-- A program does not change what is outside of its footprint. -/
theorem Prog.run_other {own free acc : Loc → Prop} {m0 : Mem α} (hd : ∀ l, own l ∨ acc l → ¬ free l) {l : Loc} (h1 : ¬ own l) (h3 : ¬ acc l) :
    ∀ (p : Prog α), p.Foot m0 own free acc → ∀ m, (∀ l, free l → m.rd l = m0.rd l) → ∀ m1, p.run m = .ok m1 → m1.rd l = m.rd l := by
  intro p
  induction p with
  | done => intro _ m hm m1 h; cases h; rfl
  | rd l' k ih =>
    intro hf m hm m1 h
    simp only [Prog.run] at h
    obtain ⟨x, hx, h⟩ := M.bind_eq_ok.1 h
    have hfk : (k x).Foot m0 own free acc := by
      rcases hf with hf | hf
      · exact hf.2 x
      · exact hf.2 x (by rw [← hm l' hf.1]; exact hx)
    exact ih x hfk m hm m1 h
  | wr l' v' k ih =>
    intro hf m hm m1 h
    simp only [Prog.run] at h
    obtain ⟨ma, ha, h⟩ := M.bind_eq_ok.1 h
    rw [ih hf.2 ma (fun l hl => by rw [Mem.rd_wr_ne ha (by rintro rfl; exact hd _ (Or.inl hf.1) hl), hm _ hl]) m1 h]
    exact Mem.rd_wr_ne ha (by rintro rfl; exact h1 hf.1)
  | atomicAdd l' v' k ih =>
    intro hf m hm m1 h
    simp only [Prog.run] at h
    obtain ⟨x, hx, h⟩ := M.bind_eq_ok.1 h
    obtain ⟨ma, ha, h⟩ := M.bind_eq_ok.1 h
    rw [ih hf.2 ma (fun l hl => by rw [Mem.rd_wr_ne ha (by rintro rfl; exact hd _ hf.1 hl), hm _ hl]) m1 h]
    exact Mem.rd_wr_ne ha (by rintro rfl; exact hf.1.elim h1 h3)
  | _ => intro hf; exact hf.elim

/-- A write outside of the footprint may be done before the program. -/
theorem Prog.run_wr {own free acc : Loc → Prop} {m0 : Mem α} (hd : ∀ l, own l ∨ acc l → ¬ free l) {l : Loc} (h1 : ¬ own l) (h2 : ¬ free l) (h3 : ¬ acc l) (v : α) :
    ∀ (p : Prog α), p.Foot m0 own free acc → ∀ m, (∀ l, free l → m.rd l = m0.rd l) → ∀ m1 m2, p.run m = .ok m1 → m1.wr l v = .ok m2 →
      ∃ m3, m.wr l v = .ok m3 ∧ p.run m3 = .ok m2 := by
  intro p
  induction p with
  | done => intro _ m _ m1 m2 h hw; cases h; exact ⟨m2, hw, rfl⟩
  | rd l' k ih =>
    intro hf m hm m1 m2 h hw
    simp only [Prog.run] at h
    obtain ⟨x, hx, h⟩ := M.bind_eq_ok.1 h
    have hne : l' ≠ l := by
      rintro rfl
      rcases hf with hf | hf
      · exact h1 hf.1
      · exact h2 hf.1
    have hfk : (k x).Foot m0 own free acc := by
      rcases hf with hf | hf
      · exact hf.2 x
      · exact hf.2 x (by rw [← hm l' hf.1]; exact hx)
    obtain ⟨m3, h3', h4⟩ := ih x hfk m hm m1 m2 h hw
    refine ⟨m3, h3', ?_⟩
    simp only [Prog.run]
    rw [Mem.rd_wr_ne h3' hne, hx]
    exact h4
  | wr l' v' k ih =>
    intro hf m hm m1 m2 h hw
    simp only [Prog.run] at h
    obtain ⟨ma, ha, h⟩ := M.bind_eq_ok.1 h
    have hne : l' ≠ l := by rintro rfl; exact h1 hf.1
    have hma : ∀ l, free l → ma.rd l = m0.rd l := fun l hl => by
      rw [Mem.rd_wr_ne ha (by rintro rfl; exact hd _ (Or.inl hf.1) hl), hm _ hl]
    obtain ⟨mb, hb, hr⟩ := ih hf.2 ma hma m1 m2 h hw
    obtain ⟨mc, hc, hc'⟩ := Mem.wr_comm hne ha hb
    refine ⟨mc, hc, ?_⟩
    simp only [Prog.run, hc', M.bind_ok]
    exact hr
  | atomicAdd l' v' k ih =>
    intro hf m hm m1 m2 h hw
    simp only [Prog.run] at h
    obtain ⟨x, hx, h⟩ := M.bind_eq_ok.1 h
    obtain ⟨ma, ha, h⟩ := M.bind_eq_ok.1 h
    have hne : l' ≠ l := by rintro rfl; exact hf.1.elim h1 h3
    have hma : ∀ l, free l → ma.rd l = m0.rd l := fun l hl => by
      rw [Mem.rd_wr_ne ha (by rintro rfl; exact hd _ hf.1 hl), hm _ hl]
    obtain ⟨mb, hb, hr⟩ := ih hf.2 ma hma m1 m2 h hw
    obtain ⟨mc, hc, hc'⟩ := Mem.wr_comm hne ha hb
    refine ⟨mc, hc, ?_⟩
    simp only [Prog.run, Mem.rd_wr_ne hc hne, hx, hc', M.bind_ok]
    exact hr
  | _ => intro hf; exact hf.elim

/-- An atomic addition outside of `own` may be done before the program, if additions commute. -/
theorem Prog.run_add {own free acc : Loc → Prop} {m0 : Mem α} (hd : ∀ l, own l ∨ acc l → ¬ free l) {l : Loc} (h1 : ¬ own l) (h2 : ¬ free l)
    (hc : acc l → ∀ x v w : α, x + v + w = x + w + v) (v : α) :
    ∀ (p : Prog α), p.Foot m0 own free acc → ∀ m, (∀ l, free l → m.rd l = m0.rd l) → ∀ m1 x1 m2, p.run m = .ok m1 → m1.rd l = .ok x1 → m1.wr l (x1 + v) = .ok m2 →
      ∃ x m3, m.rd l = .ok x ∧ m.wr l (x + v) = .ok m3 ∧ p.run m3 = .ok m2 := by
  intro p
  induction p with
  | done => intro _ m _ m1 x1 m2 h hx hw; cases h; exact ⟨x1, m2, hx, hw, rfl⟩
  | rd l' k ih =>
    intro hf m hm m1 x1 m2 h hx1 hw
    simp only [Prog.run] at h
    obtain ⟨x, hx, h⟩ := M.bind_eq_ok.1 h
    have hne : l' ≠ l := by
      rintro rfl
      rcases hf with hf | hf
      · exact h1 hf.1
      · exact h2 hf.1
    have hfk : (k x).Foot m0 own free acc := by
      rcases hf with hf | hf
      · exact hf.2 x
      · exact hf.2 x (by rw [← hm l' hf.1]; exact hx)
    obtain ⟨x3, m3, hx3, h3', h4⟩ := ih x hfk m hm m1 x1 m2 h hx1 hw
    refine ⟨x3, m3, hx3, h3', ?_⟩
    simp only [Prog.run]
    rw [Mem.rd_wr_ne h3' hne, hx]
    exact h4
  | wr l' v' k ih =>
    intro hf m hm m1 x1 m2 h hx1 hw
    simp only [Prog.run] at h
    obtain ⟨ma, ha, h⟩ := M.bind_eq_ok.1 h
    have hne : l' ≠ l := by rintro rfl; exact h1 hf.1
    have hma : ∀ l, free l → ma.rd l = m0.rd l := fun l hl => by
      rw [Mem.rd_wr_ne ha (by rintro rfl; exact hd _ (Or.inl hf.1) hl), hm _ hl]
    obtain ⟨x3, mb, hx3, hb, hr⟩ := ih hf.2 ma hma m1 x1 m2 h hx1 hw
    obtain ⟨mc, hc, hc'⟩ := Mem.wr_comm hne ha hb
    refine ⟨x3, mc, ?_, hc, ?_⟩
    · rw [← hx3, Mem.rd_wr_ne ha (Ne.symm hne)]
    simp only [Prog.run, hc', M.bind_ok]
    exact hr
  | atomicAdd l' v' k ih =>
    intro hf m hm m1 x1 m2 h hx1 hw
    simp only [Prog.run] at h
    obtain ⟨x, hx, h⟩ := M.bind_eq_ok.1 h
    obtain ⟨ma, ha, h⟩ := M.bind_eq_ok.1 h
    have hma : ∀ l, free l → ma.rd l = m0.rd l := fun l hl => by
      rw [Mem.rd_wr_ne ha (by rintro rfl; exact hd _ hf.1 hl), hm _ hl]
    obtain ⟨x3, mb, hx3, hb, hr⟩ := ih hf.2 ma hma m1 x1 m2 h hx1 hw
    by_cases hne : l' = l
    · subst hne
      have hac : acc l' := hf.1.resolve_left h1
      rw [Mem.rd_wr_eq ha] at hx3
      cases hx3
      obtain ⟨mc, hmc, _⟩ := Mem.wr_any ha (x + v)
      have hb' := Mem.wr_wr ha hb
      obtain ⟨md, hd1, hd2⟩ := Mem.wr_any hmc (x + v' + v)
      rw [hb'] at hd1
      cases hd1
      refine ⟨x, mc, hx, hmc, ?_⟩
      simp only [Prog.run, Mem.rd_wr_eq hmc, M.bind_ok]
      rw [hc hac x v v', hd2]
      exact hr
    · obtain ⟨mc, hc, hc'⟩ := Mem.wr_comm hne ha hb
      refine ⟨x3, mc, ?_, hc, ?_⟩
      · rw [← hx3, Mem.rd_wr_ne ha (Ne.symm hne)]
      simp only [Prog.run, Mem.rd_wr_ne hc hne, hx, hc', M.bind_ok]
      exact hr
  | _ => intro hf; exact hf.elim

/-- Sequential execution of several programs. -/
def runProgs : List (Prog α) → Mem α → M (Mem α)
  | [], m => .ok m
  | p :: L, m => do
    let m ← p.run m
    runProgs L m

/-- Classes of locations for a set of items. -/
structure Owned (ι : Type) where
  own : ι → Loc → Prop
  free : Loc → Prop
  acc : Loc → Prop

structure Owned.Ok (α : Type) [FP α] {ι : Type} (o : Owned ι) : Prop where
  disj : ∀ i j l, i ≠ j → o.own i l → ¬ o.own j l
  own_free : ∀ i l, o.own i l → ¬ o.free l
  own_acc : ∀ i l, o.own i l → ¬ o.acc l
  acc_free : ∀ l, o.acc l → ¬ o.free l
  comm : ∀ l, o.acc l → ∀ x v w : α, x + v + w = x + w + v

section
variable {ι : Type} {o : Owned ι} (ho : o.Ok α) {m0 : Mem α}
include ho

theorem Owned.Ok.hd (i : ι) : ∀ l, o.own i l ∨ o.acc l → ¬ o.free l := fun l h => h.elim (ho.own_free i l) (ho.acc_free l)

theorem runProgs_free (P : ι → Prog α) : ∀ (L : List ι), (∀ i ∈ L, (P i).Foot m0 (o.own i) o.free o.acc) → ∀ m, (∀ l, o.free l → m.rd l = m0.rd l) →
    ∀ m1, runProgs (L.map P) m = .ok m1 → ∀ l, o.free l → m1.rd l = m0.rd l := by
  intro L
  induction L with
  | nil => intro _ m hm m1 h; cases h; exact hm
  | cons i L ih =>
    intro hf m hm m1 h
    simp only [List.map_cons, runProgs] at h
    obtain ⟨ma, ha, h⟩ := M.bind_eq_ok.1 h
    exact ih (fun j hj => hf j (List.mem_cons_of_mem _ hj)) ma (Prog.run_free (ho.hd i) _ (hf i List.mem_cons_self) m hm ma ha) m1 h

/-- The first access of `i` may be done before the programs of other items. -/
theorem runProgs_step [DecidableEq ι] (P : ι → Prog α) (i : ι) : ∀ (L : List ι), i ∉ L → (∀ j ∈ L, (P j).Foot m0 (o.own j) o.free o.acc) →
    (P i).Foot m0 (o.own i) o.free o.acc → ∀ m, (∀ l, o.free l → m.rd l = m0.rd l) → ∀ m1 m2, runProgs (L.map P) m = .ok m1 → (P i).run m1 = .ok m2 →
    P i = .done ∨ ∃ m' q m3, (P i).step m = some (.ok (m', q)) ∧ q.Foot m0 (o.own i) o.free o.acc ∧ (∀ l, o.free l → m'.rd l = m0.rd l) ∧
      runProgs (L.map P) m' = .ok m3 ∧ q.run m3 = .ok m2 := by
  intro L hi hL hF m hm m1 m2 hr hp
  have hm1 := runProgs_free ho P L hL m hm m1 hr
  have other : ∀ l, o.own i l → ∀ (K : List ι), i ∉ K → (∀ j ∈ K, (P j).Foot m0 (o.own j) o.free o.acc) → ∀ m, (∀ l, o.free l → m.rd l = m0.rd l) →
      ∀ m1, runProgs (K.map P) m = .ok m1 → m1.rd l = m.rd l := by
    intro l hl K
    induction K with
    | nil => intro _ _ m _ m1 h; cases h; rfl
    | cons j K ih =>
      intro hiK hK m hm m1 h
      simp only [List.map_cons, runProgs] at h
      obtain ⟨ma, ha, h⟩ := M.bind_eq_ok.1 h
      have hij : i ≠ j := fun e => hiK (e ▸ List.mem_cons_self)
      rw [ih (fun h => hiK (List.mem_cons_of_mem _ h)) (fun j hj => hK j (List.mem_cons_of_mem _ hj)) ma
        (Prog.run_free (ho.hd j) _ (hK j List.mem_cons_self) m hm ma ha) m1 h]
      exact Prog.run_other (ho.hd j) (ho.disj i j l hij hl) (ho.own_acc i l hl) _ (hK j List.mem_cons_self) m hm ma ha
  have back : ∀ l v, o.own i l → ∀ (K : List ι), i ∉ K → (∀ j ∈ K, (P j).Foot m0 (o.own j) o.free o.acc) → ∀ m, (∀ l, o.free l → m.rd l = m0.rd l) →
      ∀ m1 m2, runProgs (K.map P) m = .ok m1 → m1.wr l v = .ok m2 → ∃ m3, m.wr l v = .ok m3 ∧ runProgs (K.map P) m3 = .ok m2 := by
    intro l v hl K
    induction K with
    | nil => intro _ _ m _ m1 m2 h hw; cases h; exact ⟨m2, hw, rfl⟩
    | cons j K ih =>
      intro hiK hK m hm m1 m2 h hw
      simp only [List.map_cons, runProgs] at h
      obtain ⟨ma, ha, h⟩ := M.bind_eq_ok.1 h
      have hij : i ≠ j := fun e => hiK (e ▸ List.mem_cons_self)
      obtain ⟨m3, h3, h4⟩ := ih (fun h => hiK (List.mem_cons_of_mem _ h)) (fun j hj => hK j (List.mem_cons_of_mem _ hj)) ma
        (Prog.run_free (ho.hd j) _ (hK j List.mem_cons_self) m hm ma ha) m1 m2 h hw
      obtain ⟨m5, h5, h6⟩ := Prog.run_wr (ho.hd j) (ho.disj i j l hij hl) (ho.own_free i l hl) (ho.own_acc i l hl) v _ (hK j List.mem_cons_self) m hm ma m3 ha h3
      refine ⟨m5, h5, ?_⟩
      simp only [List.map_cons, runProgs, h6, M.bind_ok]
      exact h4
  have backA : ∀ l v, o.own i l ∨ o.acc l → ∀ (K : List ι), i ∉ K → (∀ j ∈ K, (P j).Foot m0 (o.own j) o.free o.acc) → ∀ m, (∀ l, o.free l → m.rd l = m0.rd l) →
      ∀ m1 x1 m2, runProgs (K.map P) m = .ok m1 → m1.rd l = .ok x1 → m1.wr l (x1 + v) = .ok m2 →
        ∃ x m3, m.rd l = .ok x ∧ m.wr l (x + v) = .ok m3 ∧ runProgs (K.map P) m3 = .ok m2 := by
    intro l v hl K
    induction K with
    | nil => intro _ _ m _ m1 x1 m2 h hx hw; cases h; exact ⟨x1, m2, hx, hw, rfl⟩
    | cons j K ih =>
      intro hiK hK m hm m1 x1 m2 h hx hw
      simp only [List.map_cons, runProgs] at h
      obtain ⟨ma, ha, h⟩ := M.bind_eq_ok.1 h
      have hij : i ≠ j := fun e => hiK (e ▸ List.mem_cons_self)
      obtain ⟨x3, m3, hx3, h3, h4⟩ := ih (fun h => hiK (List.mem_cons_of_mem _ h)) (fun j hj => hK j (List.mem_cons_of_mem _ hj)) ma
        (Prog.run_free (ho.hd j) _ (hK j List.mem_cons_self) m hm ma ha) m1 x1 m2 h hx hw
      obtain ⟨x5, m5, hx5, h5, h6⟩ := Prog.run_add (ho.hd j) (l := l) (fun h => hl.elim (fun h' => ho.disj i j l hij h' h) (fun h' => ho.own_acc j l h h'))
        (hl.elim (ho.own_free i l) (ho.acc_free l)) (fun h => ho.comm l h) v _ (hK j List.mem_cons_self) m hm ma x3 m3 ha hx3 h3
      refine ⟨x5, m5, hx5, h5, ?_⟩
      simp only [List.map_cons, runProgs, h6, M.bind_ok]
      exact h4
  cases hP : P i with
  | done => exact Or.inl rfl
  | rd l k =>
    rw [hP] at hp hF
    simp only [Prog.run] at hp
    obtain ⟨x, hx, hp⟩ := M.bind_eq_ok.1 hp
    have hx' : m.rd l = .ok x := by
      rcases hF with hF | hF
      · rw [← hx, other l hF.1 L hi hL m hm m1 hr]
      · rw [hm l hF.1, ← hm1 l hF.1, hx]
    refine Or.inr ⟨m, k x, m1, ?_, ?_, hm, hr, hp⟩
    · simp only [Prog.step, hx', M.bind_ok]
    · rcases hF with hF | hF
      · exact hF.2 x
      · exact hF.2 x (by rw [← hm l hF.1, hx'])
  | wr l v k =>
    rw [hP] at hp hF
    simp only [Prog.run] at hp
    obtain ⟨mb, hb, hp⟩ := M.bind_eq_ok.1 hp
    obtain ⟨m3, h3, h4⟩ := back l v hF.1 L hi hL m hm m1 mb hr hb
    refine Or.inr ⟨m3, k, mb, ?_, hF.2, ?_, h4, hp⟩
    · simp only [Prog.step, h3, M.bind_ok]
    · intro l' hl'
      rw [Mem.rd_wr_ne h3 (by rintro rfl; exact ho.own_free i _ hF.1 hl'), hm _ hl']
  | atomicAdd l v k =>
    rw [hP] at hp hF
    simp only [Prog.run] at hp
    obtain ⟨x, hx, hp⟩ := M.bind_eq_ok.1 hp
    obtain ⟨mb, hb, hp⟩ := M.bind_eq_ok.1 hp
    obtain ⟨x3, m3, hx3, h3, h4⟩ := backA l v hF.1 L hi hL m hm m1 x mb hr hx hb
    refine Or.inr ⟨m3, k, mb, ?_, hF.2, ?_, h4, hp⟩
    · simp only [Prog.step, hx3, h3, M.bind_ok]
    · intro l' hl'
      rw [Mem.rd_wr_ne h3 (by rintro rfl; exact ho.hd i _ hF.1 hl'), hm _ hl']
  | _ => rw [hP] at hF; exact hF.elim

/-- Execution of programs with disjoint footprints does not depend on the order. -/
theorem runProgs_perm [DecidableEq ι] (P : ι → Prog α) {K L : List ι} (h : K.Perm L) : K.Nodup → (∀ i ∈ K, (P i).Foot m0 (o.own i) o.free o.acc) →
    ∀ m, (∀ l, o.free l → m.rd l = m0.rd l) → ∀ m1, runProgs (K.map P) m = .ok m1 → runProgs (L.map P) m = .ok m1 := by
  induction h with
  | nil => intro _ _ m _ m1 h; exact h
  | cons i h ih =>
    intro hn hf m hm m1 hr
    simp only [List.map_cons, runProgs] at hr ⊢
    obtain ⟨ma, ha, hr⟩ := M.bind_eq_ok.1 hr
    rw [ha, M.bind_ok]
    exact ih (List.nodup_cons.1 hn).2 (fun j hj => hf j (List.mem_cons_of_mem _ hj)) ma (Prog.run_free (ho.hd i) _ (hf i List.mem_cons_self) m hm ma ha) m1 hr
  | swap i j L =>
    intro hn hf m hm m1 hr
    simp only [List.map_cons, runProgs] at hr ⊢
    obtain ⟨ma, ha, hr⟩ := M.bind_eq_ok.1 hr
    obtain ⟨mb, hb, hr⟩ := M.bind_eq_ok.1 hr
    have hij : i ≠ j := fun e => (List.nodup_cons.1 hn).1 (e ▸ List.mem_cons_self)
    have key : ∀ (q : Prog α), q.Foot m0 (o.own i) o.free o.acc → ∀ m, (∀ l, o.free l → m.rd l = m0.rd l) → ∀ ma mb, (P j).run m = .ok ma → q.run ma = .ok mb →
        ∃ mc, q.run m = .ok mc ∧ (P j).run mc = .ok mb := by
      have hfj := hf j List.mem_cons_self
      intro q
      induction q with
      | done => intro _ m _ ma mb h1 h2; cases h2; exact ⟨m, rfl, h1⟩
      | rd l k ih =>
        intro hq m hm ma mb h1 h2
        simp only [Prog.run] at h2
        obtain ⟨x, hx, h2⟩ := M.bind_eq_ok.1 h2
        have hma := Prog.run_free (ho.hd j) _ hfj m hm ma h1
        have hx' : m.rd l = .ok x := by
          rcases hq with hq | hq
          · rw [← hx, Prog.run_other (ho.hd j) (ho.disj i j l hij hq.1) (ho.own_acc i l hq.1) _ hfj m hm ma h1]
          · rw [hm l hq.1, ← hma l hq.1, hx]
        have hqk : (k x).Foot m0 (o.own i) o.free o.acc := by
          rcases hq with hq | hq
          · exact hq.2 x
          · exact hq.2 x (by rw [← hm l hq.1, hx'])
        obtain ⟨mc, h3, h4⟩ := ih x hqk m hm ma mb h1 h2
        exact ⟨mc, by simp only [Prog.run, hx', M.bind_ok]; exact h3, h4⟩
      | wr l v k ih =>
        intro hq m hm ma mb h1 h2
        simp only [Prog.run] at h2
        obtain ⟨md, hd, h2⟩ := M.bind_eq_ok.1 h2
        obtain ⟨me, he, he'⟩ := Prog.run_wr (ho.hd j) (ho.disj i j l hij hq.1) (ho.own_free i l hq.1) (ho.own_acc i l hq.1) v _ hfj m hm ma md h1 hd
        obtain ⟨mc, h3, h4⟩ := ih hq.2 me (fun l' hl' => by rw [Mem.rd_wr_ne he (by rintro rfl; exact ho.own_free i _ hq.1 hl'), hm _ hl']) md mb he' h2
        exact ⟨mc, by simp only [Prog.run, he, M.bind_ok]; exact h3, h4⟩
      | atomicAdd l v k ih =>
        intro hq m hm ma mb h1 h2
        simp only [Prog.run] at h2
        obtain ⟨x, hx, h2⟩ := M.bind_eq_ok.1 h2
        obtain ⟨md, hd, h2⟩ := M.bind_eq_ok.1 h2
        obtain ⟨x', me, hx', he, he'⟩ := Prog.run_add (ho.hd j) (l := l) (fun h => hq.1.elim (fun h' => ho.disj i j l hij h' h) (fun h' => ho.own_acc j l h h'))
          (ho.hd i l hq.1) (fun h => ho.comm l h) v _ hfj m hm ma x md h1 hx hd
        obtain ⟨mc, h3, h4⟩ := ih hq.2 me (fun l' hl' => by rw [Mem.rd_wr_ne he (by rintro rfl; exact ho.hd i _ hq.1 hl'), hm _ hl']) md mb he' h2
        exact ⟨mc, by simp only [Prog.run, hx', he, M.bind_ok]; exact h3, h4⟩
      | _ => intro hq; exact hq.elim
    obtain ⟨mc, h3, h4⟩ := key (P i) (hf i (by simp)) m hm ma mb ha hb
    rw [h3, M.bind_ok, h4, M.bind_ok]
    exact hr
  | trans h1 h2 ih1 ih2 =>
    intro hn hf m hm m1 hr
    exact ih2 (h1.nodup_iff.1 hn) (fun i hi => hf i (h1.mem_iff.2 hi)) m hm m1 (ih1 hn hf m hm m1 hr)

end

/-! ### Interleavings -/

theorem runProgs_append (K L : List (Prog α)) (m : Mem α) : runProgs (K ++ L) m = (runProgs K m).bind (runProgs L) := by
  induction K generalizing m with
  | nil => rfl
  | cons p K ih =>
    simp only [List.cons_append, runProgs]
    cases h : p.run m with
    | error e => rfl
    | ok m1 => exact ih m1

theorem runProgs_congr {ι : Type} {P Q : ι → Prog α} {L : List ι} (h : ∀ i ∈ L, P i = Q i) : runProgs (L.map P) = runProgs (L.map Q) := by
  rw [List.map_congr_left h]

/-- What holds during the execution of threads without barriers. -/
structure GInv (o : Owned Tid) (m0 m' : Mem α) (L : List Tid) (s : GState α) : Prop where
  foot : ∀ t, (s.prog t).Foot m0 (o.own t) o.free o.acc
  out : ∀ t, t ∉ L → s.prog t = .done
  free : ∀ l, o.free l → s.mem.rd l = m0.rd l
  run : runProgs (L.map s.prog) s.mem = .ok m'

section
variable {o : Owned Tid} (ho : o.Ok α) {m0 m' : Mem α} {L : List Tid} (hL : L.Nodup)
include ho hL

theorem GInv.next {s : GState α} (h : GInv o m0 m' L s) (t : Tid) :
    s.prog t = .done ∨ ∃ m q, (s.prog t).step s.mem = some (.ok (m, q)) ∧ GInv o m0 m' L ⟨m, Function.update s.prog t q⟩ := by
  by_cases ht : t ∈ L
  swap
  · exact Or.inl (h.out t ht)
  obtain ⟨L1, L2, rfl⟩ := List.append_of_mem ht
  have hn : t ∉ L1 ∧ t ∉ L2 := by
    have h1 := List.nodup_append.1 hL
    refine ⟨fun hh => ?_, (List.nodup_cons.1 h1.2.1).1⟩
    exact h1.2.2 t hh t (by simp) rfl
  have hr := h.run
  rw [List.map_append, runProgs_append] at hr
  obtain ⟨m1, h1, hr⟩ := M.bind_eq_ok.1 hr
  simp only [List.map_cons, runProgs] at hr
  obtain ⟨m2, h2, hr⟩ := M.bind_eq_ok.1 hr
  rcases runProgs_step ho s.prog t L1 hn.1 (fun j _ => h.foot j) (h.foot t) s.mem h.free m1 m2 h1 h2 with hd | ⟨m, q, m3, hs, hq, hm, h3, h4⟩
  · exact Or.inl hd
  refine Or.inr ⟨m, q, hs, ⟨fun u => ?_, fun u hu => ?_, hm, ?_⟩⟩
  · by_cases hu : u = t
    · subst hu; simpa using hq
    · simpa [Function.update_of_ne hu] using h.foot u
  · have hut : u ≠ t := by rintro rfl; exact hu ht
    simpa [Function.update_of_ne hut] using h.out u hu
  · rw [List.map_append, runProgs_append]
    have e1 : L1.map (Function.update s.prog t q) = L1.map s.prog := List.map_congr_left fun u hu => Function.update_of_ne (by rintro rfl; exact hn.1 hu) _ _
    have e2 : L2.map (Function.update s.prog t q) = L2.map s.prog := List.map_congr_left fun u hu => Function.update_of_ne (by rintro rfl; exact hn.2 hu) _ _
    simp only [List.map_cons, e1, e2, h3, Function.update_self]
    change (runProgs (q :: _) m3) = _
    simp only [runProgs, h4, M.bind_ok]
    exact hr

theorem GInv.step {s s' : GState α} (h : GInv o m0 m' L s) (hs : GStep s s') : GInv o m0 m' L s' := by
  cases hs with
  | thread t hst =>
    rcases GInv.next ho hL h t with hd | ⟨m, q, hst', hi⟩
    · rw [hd] at hst; cases hst
    · rw [hst'] at hst; cases hst; exact hi
  | barrier b hb hb' =>
    obtain ⟨t, _, ht⟩ := hb'
    have hf := h.foot t
    revert ht hf
    generalize s.prog t = p
    cases p <;> simp [Prog.waits, Prog.Foot]

theorem GInv.reach {s s' : GState α} (h : GInv o m0 m' L s) (hs : Relation.ReflTransGen GStep s s') : GInv o m0 m' L s' := by
  induction hs with
  | refl => exact h
  | tail _ hs ih => exact GInv.step ho hL ih hs

theorem GInv.not_race {s : GState α} (h : GInv o m0 m' L s) : ¬ s.Race := by
  rintro ⟨t, u, l, a, b, hne, ht, hu, hab⟩
  have hft := h.foot t
  have hfu := h.foot u
  revert ht hu hft hfu
  generalize s.prog t = p
  generalize s.prog u = q
  have cls : ∀ (p : Prog α) (t : Tid) (a : Access), p.access = some (l, a) → p.Foot m0 (o.own t) o.free o.acc →
      o.own t l ∨ (o.free l ∧ a = .read) ∨ (o.acc l ∧ a = .atomic) := by
    intro p t a ha hf
    cases p with
    | rd l' k =>
      simp only [Prog.access, Option.some.injEq, Prod.mk.injEq] at ha
      obtain ⟨rfl, rfl⟩ := ha
      rcases hf with hf | hf
      · exact Or.inl hf.1
      · exact Or.inr (Or.inl ⟨hf.1, rfl⟩)
    | wr l' v k =>
      simp only [Prog.access, Option.some.injEq, Prod.mk.injEq] at ha
      obtain ⟨rfl, rfl⟩ := ha
      exact Or.inl hf.1
    | atomicAdd l' v k =>
      simp only [Prog.access, Option.some.injEq, Prod.mk.injEq] at ha
      obtain ⟨rfl, rfl⟩ := ha
      exact hf.1.elim Or.inl fun h => Or.inr (Or.inr ⟨h, rfl⟩)
    | raise => exact hf.elim
    | raiseWr => exact hf.elim
    | _ => simp [Prog.access] at ha
  intro ht hu hft hfu
  rcases cls p t a ht hft with h1 | ⟨h1, rfl⟩ | ⟨h1, rfl⟩ <;> rcases cls q u b hu hfu with h2 | ⟨h2, rfl⟩ | ⟨h2, rfl⟩
  · exact ho.disj t u l hne h1 h2
  · exact ho.own_free t l h1 h2
  · exact ho.own_acc t l h1 h2
  · exact ho.own_free u l h2 h1
  · simp at hab
  · exact ho.acc_free l h2 h1
  · exact ho.own_acc u l h2 h1
  · exact ho.acc_free l h1 h2
  · simp at hab

end

/-! ### Termination -/

/-- `q` is what remains of `p` after one access. -/
inductive Prog.Sub : Prog α → Prog α → Prop
  | rd (l : Loc) (k : α → Prog α) (v : α) : Prog.Sub (k v) (.rd l k)
  | wr (l : Loc) (v : α) (k : Prog α) : Prog.Sub k (.wr l v k)
  | atomicAdd (l : Loc) (v : α) (k : Prog α) : Prog.Sub k (.atomicAdd l v k)
  | sync (k : Prog α) : Prog.Sub k (.sync k)

theorem Prog.sub_wf : WellFounded (Prog.Sub : Prog α → Prog α → Prop) := by
  refine ⟨fun p => ?_⟩
  induction p with
  | rd l k ih => exact ⟨_, fun q h => by cases h; exact ih _⟩
  | wr l v k ih => exact ⟨_, fun q h => by cases h; exact ih⟩
  | atomicAdd l v k ih => exact ⟨_, fun q h => by cases h; exact ih⟩
  | sync k ih => exact ⟨_, fun q h => by cases h; exact ih⟩
  | _ => exact ⟨_, fun q h => by cases h⟩

/-- The next access is not part of a `raise` loop. -/
def Prog.Plain : Prog α → Prop
  | .raise _ _ _ => False
  | .raiseWr _ _ _ => False
  | _ => True

/-- A strict order: what remains of a program. -/
def Prog.Lt (p q : Prog α) : Prop := Relation.TransGen Prog.Sub p q

theorem Prog.lt_wf : WellFounded (Prog.Lt : Prog α → Prog α → Prop) := Prog.sub_wf.transGen

instance progPreorder : Preorder (Prog α) where
  le p q := Relation.ReflTransGen Prog.Sub p q
  lt := Prog.Lt
  le_refl p := .refl
  le_trans p q r h h' := h.trans h'
  lt_iff_le_not_ge p q := by
    constructor
    · intro h
      refine ⟨h.to_reflTransGen, fun h' => ?_⟩
      have : Prog.Lt p p := Relation.TransGen.trans_left h h'
      exact (Prog.lt_wf.irrefl.irrefl p) this
    · rintro ⟨h, h'⟩
      rcases Relation.reflTransGen_iff_eq_or_transGen.1 h with rfl | h
      · exact (h' .refl).elim
      · exact h

instance : WellFoundedLT (Prog α) := ⟨Prog.lt_wf⟩

theorem Prog.step_sub {p q : Prog α} {m m' : Mem α} (hn : p.Plain) (h : p.step m = some (.ok (m', q))) : Prog.Sub q p := by
  cases p with
  | rd l k =>
    simp only [Prog.step, Option.some.injEq] at h
    obtain ⟨v, _, h⟩ := M.bind_eq_ok.1 h
    cases h
    exact .rd l k v
  | wr l v k =>
    simp only [Prog.step, Option.some.injEq] at h
    obtain ⟨_, _, h⟩ := M.bind_eq_ok.1 h
    cases h
    exact .wr l v _
  | atomicAdd l v k =>
    simp only [Prog.step, Option.some.injEq] at h
    obtain ⟨_, _, h⟩ := M.bind_eq_ok.1 h
    obtain ⟨_, _, h⟩ := M.bind_eq_ok.1 h
    cases h
    exact .atomicAdd l v _
  | raise => exact hn.elim
  | raiseWr => exact hn.elim
  | _ => simp [Prog.step] at h

/-- Grids of threads without `raise` terminate. -/
theorem GStep.terminates (L : List Tid) (f : Nat → GState α) (h0 : ∀ n t, ((f n).prog t).Plain) (h1 : ∀ n t, t ∉ L → (f n).prog t = .done)
    (hs : ∀ n, GStep (f n) (f (n + 1))) : False := by
  let g : Nat → ({t // t ∈ L} → Prog α) := fun n t => (f n).prog t
  have dec : ∀ n, g (n + 1) < g n := by
    intro n
    have h := hs n
    have hi0 := h0 n
    have hi1 := h1 n
    revert h
    simp only [g]
    generalize f (n+1) = s'
    intro h
    cases h with
    | thread t h =>
      have hsub := Prog.step_sub (hi0 t) h
      have ht : t ∈ L := by
        by_contra ht
        rw [hi1 t ht] at h
        cases h
      rw [Pi.lt_def]
      refine ⟨fun u => ?_, ⟨⟨t, ht⟩, ?_⟩⟩
      · by_cases e : u.1 = t
        · simp only [e, Function.update_self]
          exact Relation.ReflTransGen.single hsub
        · simp only [Function.update_of_ne e]
          exact Relation.ReflTransGen.refl
      · simp only [Function.update_self]
        exact Relation.TransGen.single hsub
    | barrier b h h' =>
      obtain ⟨t, hb, hw⟩ := h'
      have ht : t ∈ L := by
        by_contra ht
        rw [hi1 t ht] at hw
        exact hw
      rw [Pi.lt_def]
      refine ⟨fun u => ?_, ⟨⟨t, ht⟩, ?_⟩⟩
      · simp only
        split
        · next e =>
          rcases h u.1 e with h | h
          · rw [h]; exact Relation.ReflTransGen.refl
          · revert h
            generalize (f n).prog u.1 = p
            intro h
            cases p with
            | sync k => exact Relation.ReflTransGen.single (.sync k)
            | _ => exact h.elim
        · exact Relation.ReflTransGen.refl
      · simp only [if_pos hb]
        revert hw
        generalize (f n).prog t = p
        intro h
        cases p with
        | sync k => exact Relation.TransGen.single (.sync k)
        | _ => exact h.elim
  have wf : WellFounded (fun a b : {t // t ∈ L} → Prog α => a < b) := (Pi.wellFoundedLT : WellFoundedLT ({t // t ∈ L} → Prog α)).wf
  exact (RelEmbedding.not_wellFounded (RelEmbedding.natGT g dec)) wf

theorem Prog.Foot.plain {own free acc : Loc → Prop} {m0 : Mem α} {p : Prog α} (h : p.Foot m0 own free acc) : p.Plain := by
  cases p <;> simp_all [Prog.Foot, Prog.Plain]

/-- Threads without barriers and with disjoint footprints: all interleavings end with the result of the sequential execution. -/
theorem Launch.works_of_owned (g : Launch α) (bufs : Nat → Buf α) {o : Owned Tid} (ho : o.Ok α) (L : List Tid) (hL : L.Nodup)
    (hcov : ∀ t, t ∉ L → g.start t = .done) (hf : ∀ t ∈ L, (g.start t).Foot (g.mem bufs) (o.own t) o.free o.acc) {m' : Mem α}
    (hr : runProgs (L.map g.start) (g.mem bufs) = .ok m') : g.Works bufs fun bs => bs = fun b => m' (.glob b) := by
  have hi : GInv o (g.mem bufs) m' L (g.init bufs) := by
    refine ⟨fun t => ?_, hcov, fun l _ => rfl, hr⟩
    by_cases ht : t ∈ L
    · exact hf t ht
    · change (g.start t).Foot _ _ _ _
      rw [hcov t ht]
      trivial
  have hR : ∀ s, g.Reach bufs s → GInv o (g.mem bufs) m' L s := fun s h => GInv.reach ho hL hi h
  have hdef : ∀ s, g.Reach bufs s → ¬ s.Fails := by
    rintro s h ⟨t, e, he⟩
    rcases GInv.next ho hL (hR s h) t with hd | ⟨m, q, hst, _⟩
    · rw [hd] at he; cases he
    · rw [hst] at he; cases he
  refine ⟨⟨hdef, fun s h => GInv.not_race ho hL (hR s h), fun s h => ?_, fun s h hF => ?_⟩, ?_⟩
  · by_cases hF : s.Final
    · exact Or.inl hF
    · unfold GState.Final at hF
      push Not at hF
      obtain ⟨t, ht⟩ := hF
      rcases GInv.next ho hL (hR s h) t with hd | ⟨m, q, hst, _⟩
      · exact (ht hd).elim
      · exact Or.inr ⟨_, .thread t hst⟩
  · have h1 := (hR s h).run
    have : ∀ (K : List Tid) m, runProgs (K.map s.prog) m = .ok m := by
      intro K m
      induction K with
      | nil => rfl
      | cons t K ih => simp only [List.map_cons, runProgs, hF t, Prog.run, M.bind_ok]; exact ih
    rw [this] at h1
    cases h1
    rfl
  · rintro ⟨f, f0, fs⟩
    have hreach : ∀ n, g.Reach bufs (f n) := by
      intro n
      induction n with
      | zero => rw [f0]; exact .refl
      | succ n ih => exact ih.tail (fs n)
    exact GStep.terminates L f (fun n t => ((hR _ (hreach n)).foot t).plain) (fun n => (hR _ (hreach n)).out) fs

end NNTile
