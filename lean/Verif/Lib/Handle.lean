import Verif.Spec.Handle
import Mathlib.Tactic.Set
/-!
# Handles: the invariant of shared ownership
-/
namespace NNTile.Handle

theorem deleter_brings {m : Mode} {k : Kind} (h : deleter m = some k) : Brings m k := by
  cases m <;> simp only [deleter, Option.some.injEq, reduceCtorEq] at h <;> subst h <;> constructor

/-- The life of `d`, with the counter instead of the owners. -/
def LifeOf (del : Nat → Kind) (log : List Event) (d n : Nat) : Prop :=
  (log.filter (fun e => e.data == d) = [] ∧ n = 0) ∨
  (∃ m us, log.filter (fun e => e.data == d) = .register d m :: us ∧ (∀ e ∈ us, e.isUse) ∧ deleter m = some (del d) ∧ 0 < n) ∨
  (∃ m us k, log.filter (fun e => e.data == d) = .register d m :: us ++ [.unregister d k] ∧ (∀ e ∈ us, e.isUse) ∧ Brings m k ∧ n = 0) ∨
  (log.filter (fun e => e.data == d) = [.register d .other] ∧ n = 0)

/-- Every data has the life its counter says. -/
def Life (w : World) : Prop := (∀ d, LifeOf w.del w.log d (w.use d)) ∧ ∀ d, w.next ≤ d → w.log.filter (fun e => e.data == d) = []

/-- The counters count the owners. -/
def Counts (w : World) : Prop := ∀ d, w.use d = w.owners d

theorem filter_add {log : List Event} {e : Event} {d : Nat} (h : e.data ≠ d) : (log ++ [e]).filter (fun e => e.data == d) = log.filter (fun e => e.data == d) := by
  simp [List.filter_append, h]

theorem filter_add_same {log : List Event} {e : Event} {d : Nat} (h : e.data = d) :
    (log ++ [e]).filter (fun e => e.data == d) = log.filter (fun e => e.data == d) ++ [e] := by
  simp [List.filter_append, h]

theorem LifeOf.pos {del : Nat → Kind} {log : List Event} {d n : Nat} (h : LifeOf del log d n) (hn : 0 < n) :
    ∃ m us, log.filter (fun e => e.data == d) = .register d m :: us ∧ (∀ e ∈ us, e.isUse) ∧ deleter m = some (del d) := by
  rcases h with ⟨-, h⟩ | ⟨m, us, h1, h2, h3, -⟩ | ⟨_, _, _, _, _, _, h⟩ | ⟨-, h⟩
  · omega
  · exact ⟨m, us, h1, h2, h3⟩
  · omega
  · omega

theorem LifeOf.of_pos {del : Nat → Kind} {log : List Event} {d n n' : Nat} (h : LifeOf del log d n) (hn : 0 < n) (hn' : 0 < n') : LifeOf del log d n' := by
  obtain ⟨m, us, h1, h2, h3⟩ := h.pos hn
  exact .inr (.inl ⟨m, us, h1, h2, h3, hn'⟩)

theorem Life.lt {w : World} (h : Life w) {d : Nat} (hd : 0 < w.use d) : d < w.next := by
  by_contra hc
  obtain ⟨m, us, h1, -⟩ := (h.1 d).pos hd
  rw [h.2 d (by omega)] at h1
  exact absurd h1 (by simp)

theorem Life.retain {w : World} (h : Life w) {o : Option Nat} (ho : ∀ d, o = some d → 0 < w.use d) : Life (w.retain o) := by
  cases o with
  | none => exact h
  | some d =>
    have hd := ho d rfl
    refine ⟨fun d' => ?_, h.2⟩
    change LifeOf w.del w.log d' (Function.update w.use d (w.use d + 1) d')
    by_cases e : d' = d
    · subst e
      rw [Function.update_self]
      exact (h.1 d').of_pos hd (by omega)
    · rw [Function.update_of_ne e]
      exact h.1 d'

/-- What the end of a shared pointer does. -/
theorem drop_spec {w : World} {d : Nat} (hd : 0 < w.use d) :
    ((w.use d = 1 ∧ d ∈ w.held.map Prod.fst) ∧ w.drop (some d) = .stuck) ∨
    ∃ w', w.drop (some d) = .ok w' ∧ w'.handles = w.handles ∧ w'.locals = w.locals ∧ w'.held = w.held ∧ w'.next = w.next ∧ w'.del = w.del ∧
      w'.use = Function.update w.use d (w.use d - 1) ∧ (w.use d = 1 ∧ w'.log = w.log ++ [.unregister d (w.del d)] ∨ w.use d ≠ 1 ∧ w'.log = w.log) := by
  unfold World.drop
  dsimp only
  rw [if_neg (by omega)]
  by_cases e : w.use d = 1
  · rw [if_pos e]
    by_cases e' : d ∈ w.held.map Prod.fst
    · rw [if_pos e']
      exact .inl ⟨⟨e, e'⟩, rfl⟩
    · rw [if_neg e']
      exact .inr ⟨_, rfl, rfl, rfl, rfl, rfl, rfl, by rw [e], .inl ⟨e, rfl⟩⟩
  · rw [if_neg e]
    exact .inr ⟨_, rfl, rfl, rfl, rfl, rfl, rfl, rfl, .inr ⟨e, rfl⟩⟩

theorem Life.drop {w w' : World} (h : Life w) {d : Nat} (hd : 0 < w.use d) (he : w.drop (some d) = .ok w') : Life w' := by
  rcases drop_spec hd with ⟨-, h1⟩ | ⟨w1, h1, -, -, -, hn, hdel, huse, hl⟩
  · rw [h1] at he
    cases he
  · rw [h1] at he
    cases he
    have hlt := h.lt hd
    rcases hl with ⟨e1, hl⟩ | ⟨e1, hl⟩
    · refine ⟨fun d' => ?_, fun d' hd' => ?_⟩
      · rw [hdel, huse, hl]
        by_cases e : d' = d
        · subst e
          rw [Function.update_self, e1]
          obtain ⟨m, us, c1, c2, c3⟩ := (h.1 d').pos hd
          refine .inr (.inr (.inl ⟨m, us, w.del d', ?_, c2, deleter_brings c3, rfl⟩))
          rw [filter_add_same (d := d') (by rfl), c1]
        · rw [Function.update_of_ne e, LifeOf, filter_add (by exact fun c => e c.symm)]
          exact h.1 d'
      · rw [hl, filter_add (by change d ≠ d'; omega)]
        exact h.2 d' (by omega)
    · refine ⟨fun d' => ?_, fun d' hd' => ?_⟩
      · rw [hdel, huse, hl]
        by_cases e : d' = d
        · subst e
          rw [Function.update_self]
          exact (h.1 d').of_pos hd (by omega)
        · rw [Function.update_of_ne e]
          exact h.1 d'
      · rw [hl]
        exact h.2 d' (by omega)

theorem Life.use_event {w w' : World} (h : Life w) {e : Event} (he : e.isUse) (hd : 0 < w.use e.data) (hn : w'.next = w.next) (hu : w'.use = w.use) (hdel : w'.del = w.del)
    (hl : w'.log = w.log ++ [e]) : Life w' := by
  have hlt := h.lt hd
  refine ⟨fun d' => ?_, fun d' hd' => ?_⟩
  · rw [hdel, hu, hl]
    by_cases c : e.data = d'
    · subst c
      obtain ⟨m, us, c1, c2, c3⟩ := (h.1 e.data).pos hd
      refine .inr (.inl ⟨m, us ++ [e], ?_, ?_, c3, hd⟩)
      · rw [filter_add_same rfl, c1, List.cons_append]
      · intro e' h'
        rcases List.mem_append.1 h' with h' | h'
        · exact c2 e' h'
        · rw [List.mem_singleton.1 h']
          exact he
    · rw [LifeOf, filter_add c]
      exact h.1 d'
  · rw [hl, filter_add (by omega)]
    exact h.2 d' (by omega)

theorem Life.congr {w w' : World} (h : Life w) (hn : w'.next = w.next) (hu : w'.use = w.use) (hdel : w'.del = w.del) (hl : w'.log = w.log) : Life w' := by
  unfold Life
  rw [hn, hu, hdel, hl]
  exact h

/-- One if `b`. -/
def one (b : Bool) : Nat := if b then 1 else 0

theorem countP_set_one {α : Type} {p : α → Bool} {l : List α} {i : Nat} {x a : α} (h : l[i]? = some x) : (l.set i a).countP p + one (p x) = l.countP p + one (p a) := by
  obtain ⟨hi, hx⟩ := List.getElem?_eq_some_iff.1 h
  have h1 : one (p x) ≤ l.countP p := by
    unfold one
    split_ifs with e
    · exact List.countP_pos_iff.2 ⟨x, by rw [← hx]; exact List.getElem_mem hi, e⟩
    · omega
  rw [List.countP_set hi, hx]
  unfold one at *
  omega

theorem handle_of {w : World} {i : Nat} {d : Option Nat} (h : w.dataOf i = some d) : w.handles[i]? = some (.live d) := by
  unfold World.dataOf at h
  split at h
  · rename_i h'
    rw [h']
    cases h
    rfl
  · cases h

theorem local_of {w : World} {j : Nat} {l : LocalData} (h : w.localOf j = some l) : w.locals[j]? = some (some l) := by
  unfold World.localOf at h
  cases e : w.locals[j]? with
  | none => rw [e] at h; cases h
  | some x =>
    rw [e] at h
    change x = some l at h
    rw [h]

theorem handle_owner {w : World} {i d : Nat} (h : w.dataOf i = some (some d)) : 0 < w.owners d := by
  have h1 : 0 < w.handles.countP (fun v => v.data == some d) := List.countP_pos_iff.2 ⟨_, List.mem_of_getElem? (handle_of h), by simp [Var.data]⟩
  unfold World.owners
  omega

theorem local_owner {w : World} {j d : Nat} {l : LocalData} (h : w.localOf j = some l) (hl : l.data = some d) : 0 < w.owners d := by
  have h1 : 0 < w.locals.countP (fun l => localData l == some d) := List.countP_pos_iff.2 ⟨_, List.mem_of_getElem? (local_of h), by simp [localData, hl]⟩
  unfold World.owners
  omega

theorem retain_use {w : World} {o : Option Nat} {d : Nat} : (w.retain o).use d = w.use d + one (o == some d) := by
  cases o with
  | none => rfl
  | some d' =>
    change Function.update w.use d' (w.use d' + 1) d = _
    by_cases e : d = d'
    · subst e
      simp [one]
    · rw [Function.update_of_ne e]
      simp [one, Ne.symm e]

theorem drop_ok {w w' : World} {o : Option Nat} (h : w.drop o = .ok w') : w'.handles = w.handles ∧ w'.locals = w.locals ∧ w'.held = w.held ∧ w'.next = w.next ∧ w'.del = w.del ∧
    ∀ d, w'.use d + one (o == some d) = w.use d := by
  cases o with
  | none =>
    cases h
    exact ⟨rfl, rfl, rfl, rfl, rfl, fun _ => rfl⟩
  | some d =>
    by_cases hd : w.use d = 0
    · rw [World.drop, if_pos hd] at h
      cases h
    · rcases drop_spec (d := d) (by omega : 0 < w.use d) with ⟨-, h1⟩ | ⟨w1, h1, c1, c2, c3, c4, c5, c6, -⟩
      · rw [h1] at h
        cases h
      · rw [h1] at h
        cases h
        refine ⟨c1, c2, c3, c4, c5, fun d' => ?_⟩
        rw [c6]
        by_cases e : d' = d
        · subst e
          rw [Function.update_self]
          simp [one]
          omega
        · rw [Function.update_of_ne e]
          simp [one, Ne.symm e]

theorem Life.drop' {w w' : World} (h : Life w) {o : Option Nat} (he : w.drop o = .ok w') : Life w' := by
  cases o with
  | none => cases he; exact h
  | some d =>
    by_cases hd : w.use d = 0
    · rw [World.drop, if_pos hd] at he
      cases he
    · exact h.drop (by omega) he

theorem drop_not_raised {w w' : World} {o : Option Nat} : w.drop o ≠ .raised w' := by
  intro h
  unfold World.drop at h
  split at h
  · cases h
  · split_ifs at h

end NNTile.Handle
