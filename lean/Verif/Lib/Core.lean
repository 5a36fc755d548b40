import Verif.Model.Core
import Mathlib.Tactic.Choose
/-! Helper lemmas about outcomes, buffers and loops. -/
namespace NNTile

@[simp] theorem M.bind_ok {α β : Type _} (a : α) (f : α → M β) : (Except.ok a >>= f : M β) = f a := rfl
@[simp] theorem M.bind_error {α β : Type _} (e : Err) (f : α → M β) : (Except.error e >>= f : M β) = .error e := rfl
@[simp] theorem M.pure_eq {α : Type _} (a : α) : (pure a : M α) = .ok a := rfl
@[simp] theorem M.throw_eq {α : Type _} (e : Err) : (throw e : M α) = .error e := rfl

theorem M.bind_eq_ok {α β : Type _} {x : M α} {f : α → M β} {b : β} :
    (x >>= f) = .ok b ↔ ∃ a, x = .ok a ∧ f a = .ok b := by
  cases x with
  | error e => simp [bind, Except.bind]
  | ok a => simp [bind, Except.bind]

theorem throwIf_neg {c : Prop} [Decidable c] {m : String} (h : ¬ c) : throwIf c m = .ok () := by simp [throwIf, h]
theorem throwIf_pos {c : Prop} [Decidable c] {m : String} (h : c) : throwIf c m = .error (.throw m) := by simp [throwIf, h]

/-- A chain of checks: if the check fires the call throws, otherwise it continues. -/
theorem throws_throwIf_bind {α : Type _} {c : Prop} [Decidable c] {m : String} {f : Unit → M α} :
    Throws (throwIf c m >>= f) ↔ c ∨ (¬ c ∧ Throws (f ())) := by
  by_cases h : c
  · simp [throwIf, h, Throws]
  · simp [throwIf, h]

/-- It is enough to show that the call throws when the check does not fire. -/
theorem throws_step {α : Type _} {c : Prop} [Decidable c] {m : String} {f : Unit → M α} (h : ¬ c → Throws (f ())) :
    Throws (throwIf c m >>= f) := by
  rw [throws_throwIf_bind]
  by_cases hc : c
  · exact .inl hc
  · exact .inr ⟨hc, h hc⟩

theorem throws_pos {α : Type _} {c : Prop} [Decidable c] {m : String} {f : Unit → M α} (h : c) : Throws (throwIf c m >>= f) :=
  throws_throwIf_bind.2 (.inl h)

theorem throws_iff_not_ub {α} {m : String} : Throws (.error (.throw m) : M α) := ⟨m, rfl⟩

namespace Buf
variable {α : Type _}

theorem rd_ok {b : Buf α} {i : Nat} {v : α} (hi : i < b.size) (hv : b.data i = some v) : b.rd i = .ok v := by
  simp [rd, hi, hv]

theorem wr_ok {b : Buf α} {i : Nat} (v : α) (hi : i < b.size) :
    b.wr i v = .ok ⟨b.size, fun j => if j = i then some v else b.data j⟩ := by
  simp [wr, hi]

instance : Inhabited (Buf α) := ⟨undef 0⟩

@[simp] theorem undef_size (n : Nat) : (undef n : Buf α).size = n := rfl
@[simp] theorem undef_data (n k : Nat) : (undef n : Buf α).data k = none := rfl

@[ext] theorem ext' {a b : Buf α} (h1 : a.size = b.size) (h2 : ∀ k, a.data k = b.data k) : a = b := by
  cases a; cases b; simp only [mk.injEq] at *; exact ⟨h1, funext h2⟩

end Buf

section forN
variable {σ : Type _}

@[simp] theorem forN_zero (f : Nat → σ → M σ) (s : σ) : forN 0 f s = .ok s := rfl
theorem forN_succ (n : Nat) (f : Nat → σ → M σ) (s : σ) : forN (n+1) f s = forN n f s >>= f n := rfl

/-- The loop rule. -/
theorem forN_inv {n : Nat} {f : Nat → σ → M σ} {s : σ} (Inv : Nat → σ → Prop) (h0 : Inv 0 s)
    (hs : ∀ i, i < n → ∀ s, Inv i s → ∃ s', f i s = .ok s' ∧ Inv (i+1) s') :
    ∃ s', forN n f s = .ok s' ∧ Inv n s' := by
  induction n with
  | zero => exact ⟨s, rfl, h0⟩
  | succ n ih =>
    obtain ⟨s1, h1, i1⟩ := ih (fun i hi => hs i (by omega))
    obtain ⟨s2, h2, i2⟩ := hs n (by omega) s1 i1
    exact ⟨s2, by rw [forN_succ, h1]; exact h2, i2⟩

/-- A loop whose body always succeeds with a known pure result is a fold. -/
theorem forN_eq {n : Nat} {f : Nat → σ → M σ} {s : σ} (g : Nat → σ) (h0 : g 0 = s) (hs : ∀ i, i < n → f i (g i) = .ok (g (i+1))) :
    forN n f s = .ok (g n) := by
  obtain ⟨s', e, rfl⟩ := forN_inv (n := n) (f := f) (fun i s => s = g i) h0.symm (fun i hi s hs' => ⟨_, by rw [hs', hs i hi], rfl⟩)
  exact e

theorem forN_pure {n : Nat} {f : Nat → σ → M σ} {g : Nat → σ → σ} {s : σ}
    (h : ∀ i, i < n → ∀ s, f i s = .ok (g i s)) :
    forN n f s = .ok ((List.range n).foldl (fun s i => g i s) s) := by
  induction n with
  | zero => rfl
  | succ n ih =>
    rw [forN_succ, ih (fun i hi => h i (by omega)), M.bind_ok, h n (by omega), List.range_succ]
    simp

theorem forN_congr {n : Nat} {f g : Nat → σ → M σ} {s : σ} (h : ∀ i, i < n → ∀ s, f i s = g i s) :
    forN n f s = forN n g s := by
  induction n with
  | zero => rfl
  | succ n ih =>
    rw [forN_succ, forN_succ, ih (fun i hi => h i (by omega))]
    cases forN n g s with
    | error e => rfl
    | ok a => exact h n (by omega) a

end forN

/-! ### Cell-wise effect calculus on one buffer

`CellTr α` says what happens to one memory cell: from its old content to `none` (undefined behaviour) or to the new content. -/

/-- What an operation does to one cell: `none` = undefined behaviour, `some c` = the new content. -/
abbrev CellTr (α : Type _) := Option α → Option (Option α)

/-- `f` transforms every cell `k` of a buffer of `N` elements by `G k`. -/
def Acts {α : Type _} (N : Nat) (f : Buf α → M (Buf α)) (G : Nat → CellTr α) : Prop :=
  ∀ d d' : Nat → Option α, (∀ k, G k (d k) = some (d' k)) → f ⟨N, d⟩ = .ok ⟨N, d'⟩

section Acts
variable {α : Type _} {N : Nat}

theorem Acts.comp {f g : Buf α → M (Buf α)} {F G : Nat → CellTr α} (hf : Acts N f F) (hg : Acts N g G) :
    Acts N (fun b => f b >>= g) (fun k c => F k c >>= G k) := by
  intro d d'' h
  have : ∀ k, ∃ c, F k (d k) = some c ∧ G k c = some (d'' k) := by
    intro k
    have hk := h k
    simp only [Option.bind_eq_bind, Option.bind_eq_some_iff] at hk
    exact hk
  choose d' h1 h2 using this
  show f ⟨N, d⟩ >>= g = _
  rw [hf d d' h1, M.bind_ok]
  exact hg d' d'' h2

theorem Acts.congr {f : Buf α → M (Buf α)} {F G : Nat → CellTr α} (hf : Acts N f F)
    (h : ∀ k c, F k c = G k c) : Acts N f G := by
  intro d d' hd
  exact hf d d' (fun k => by rw [h]; exact hd k)

theorem Acts.id : Acts N (fun b : Buf α => .ok b) (fun _ c => some c) := by
  intro d d' h
  have : d = d' := funext fun k => by simpa using h k
  simp [this]

/-- Iterated effect of a loop on one cell. -/
def iterTr (n : Nat) (G : Nat → CellTr α) : CellTr α :=
  match n with
  | 0 => fun c => some c
  | n+1 => fun c => iterTr n G c >>= G n

theorem Acts.forN {n : Nat} {f : Nat → Buf α → M (Buf α)} {G : Nat → Nat → CellTr α}
    (h : ∀ i, i < n → Acts N (f i) (G i)) :
    Acts N (fun b => NNTile.forN n f b) (fun k => iterTr n (fun i => G i k)) := by
  induction n with
  | zero => exact Acts.id
  | succ n ih =>
    have h1 := ih (fun i hi => h i (by omega))
    have h2 := h n (by omega)
    exact h1.comp h2

theorem iterTr_eq_id {n : Nat} {G : Nat → CellTr α} (h : ∀ i, i < n → ∀ c, G i c = some c) (c : Option α) :
    iterTr n G c = some c := by
  induction n with
  | zero => rfl
  | succ n ih =>
    simp only [iterTr, ih (fun i hi => h i (by omega)), Option.bind_eq_bind, Option.bind_some]
    exact h n (by omega) c

/-- If only iteration `i0` touches the cell, the loop does to it what iteration `i0` does. -/
theorem iterTr_eq_single {n : Nat} {G : Nat → CellTr α} (i0 : Nat) (h0 : i0 < n)
    (h : ∀ i, i < n → i ≠ i0 → ∀ c, G i c = some c) (c : Option α) :
    iterTr n G c = G i0 c := by
  induction n with
  | zero => omega
  | succ n ih =>
    by_cases hn : i0 = n
    · subst hn
      simp only [iterTr]
      rw [iterTr_eq_id (fun i hi => h i (by omega) (by omega))]
      rfl
    · simp only [iterTr]
      rw [ih (by omega) (fun i hi => h i (by omega))]
      cases hc : G i0 c with
      | none => rfl
      | some c' => simp only [Option.bind_eq_bind, Option.bind_some]; exact h n (by omega) (fun e => hn e.symm) c'

theorem iterTr_congr {n : Nat} {G H : Nat → CellTr α} (h : ∀ i, i < n → ∀ c, G i c = H i c) (c : Option α) :
    iterTr n G c = iterTr n H c := by
  induction n with
  | zero => rfl
  | succ n ih =>
    simp only [iterTr, ih (fun i hi => h i (by omega))]
    congr 1
    funext c
    exact h n (by omega) c

/-- A write of a value which does not depend on the buffer. -/
theorem Acts.wr {i : Nat} {v : α} (hi : i < N) :
    Acts N (fun b => b.wr i v) (fun k c => if k = i then some (some v) else some c) := by
  intro d d' h
  simp only [Buf.wr, hi, if_true]
  congr 2
  funext k
  have := h k
  by_cases hk : k = i <;> simp_all

/-- A read-modify-write of one cell. -/
theorem Acts.rmw {i : Nat} {g : α → α} (hi : i < N) :
    Acts N (fun b => b.rd i >>= fun x => b.wr i (g x))
      (fun k c => if k = i then c.map (fun x => some (g x)) else some c) := by
  intro d d' h
  have hi' := h i
  simp only [if_true] at hi'
  cases hd : d i with
  | none => simp [hd] at hi'
  | some x =>
    rw [hd] at hi'
    simp only [Option.map_some, Option.some.injEq] at hi'
    simp only [Buf.rd, Buf.wr, hi, if_true, hd, M.bind_ok]
    congr 2
    funext k
    have := h k
    by_cases hk : k = i
    · subst hk; simp [← hi']
    · simpa [hk] using this

/-- The general read-modify-write, possibly without the read. -/
theorem Acts.of_step {i : Nat} {f : Buf α → M (Buf α)} {g : CellTr α} (hi : i < N)
    (hf : ∀ d : Nat → Option α, ∀ c', g (d i) = some c' →
      f ⟨N, d⟩ = .ok ⟨N, fun j => if j = i then c' else d j⟩) :
    Acts N f (fun k c => if k = i then g c else some c) := by
  intro d d' h
  have hi' := h i
  simp only [if_true] at hi'
  rw [hf d (d' i) hi']
  congr 2
  funext k
  have := h k
  by_cases hk : k = i
  · subst hk; simp
  · simpa [hk] using this

end Acts
end NNTile
