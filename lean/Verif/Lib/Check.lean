import Verif.Model.Axis
import Verif.Lib.Axis
import Verif.Lib.Elementwise
/-! Argument checks: when they pass and when they throw. -/
namespace NNTile

/-- The checks pass exactly if `p`, and throw otherwise. -/
structure Check (x : M Unit) (p : Prop) : Prop where
  ok : p → x = .ok ()
  bad : ¬ p → Throws x

theorem Check.throwIf {c : Prop} [Decidable c] {m : String} : Check (NNTile.throwIf c m) (¬ c) :=
  ⟨fun h => throwIf_neg h, fun h => ⟨m, throwIf_pos (by simpa using h)⟩⟩

theorem Check.bind {x y : M Unit} {p q : Prop} (hx : Check x p) (hy : p → Check y q) : Check (x >>= fun _ => y) (p ∧ q) := by
  constructor
  · rintro ⟨h1, h2⟩
    rw [hx.ok h1, M.bind_ok, (hy h1).ok h2]
  · intro h
    by_cases hp : p
    · rw [hx.ok hp, M.bind_ok]
      exact (hy hp).bad (fun hq => h ⟨hp, hq⟩)
    · exact (hx.bad hp).bind

theorem Check.mono {x : M Unit} {p q : Prop} (h : Check x p) (hpq : p ↔ q) : Check x q := ⟨fun hq => h.ok (hpq.2 hq), fun hq => h.bad (fun hp => hq (hpq.1 hp))⟩

theorem Check.forCheck {n : Nat} {f : Nat → M Unit} {P : Nat → Prop} (h : ∀ i, i < n → Check (f i) (P i)) :
    Check (forCheck n f) (∀ i, i < n → P i) := by
  induction n with
  | zero => exact ⟨fun _ => rfl, fun h => absurd (fun i hi => by omega) h⟩
  | succ n ih =>
    have h1 := ih (fun i hi => h i (by omega))
    have h2 := (h1.bind (fun _ => h n (by omega))).mono (q := ∀ i, i < n + 1 → P i) (by
      constructor
      · rintro ⟨a, b⟩ i hi
        rcases Nat.lt_succ_iff_lt_or_eq.1 hi with h' | rfl
        · exact a i h'
        · exact b
      · intro a
        exact ⟨fun i hi => a i (by omega), a n (by omega)⟩)
    exact h2

/-- A function that first checks its arguments. -/
theorem Check.throws {β : Type _} {x : M Unit} {p : Prop} {f : Unit → M β} (h : Check x p) (hp : ¬ p) : Throws (x >>= f) := (h.bad hp).bind
theorem Check.throws_step {β : Type _} {x : M Unit} {p : Prop} {f : Unit → M β} (h : Check x p) (hf : p → Throws (f ())) : Throws (x >>= f) := by
  by_cases hp : p
  · rw [h.ok hp]; exact hf hp
  · exact h.throws hp

theorem vget_ok {l : List Nat} {i : Nat} (h : i < l.length) : vget l i = .ok (l.getD i 0) := by
  simp [vget, h]

theorem checkPair_check {A B : Tensor} (hA : A.WF) (hB : B.WF) {i j : Nat} (hi : i < A.ndim) (hj : j < B.ndim) :
    Check (checkPair A B i j) (A.shape.getD i 0 = B.shape.getD j 0 ∧ A.basetile.getD i 0 = B.basetile.getD j 0) := by
  simp only [checkPair, vget_ok (show i < A.shape.length from hi), vget_ok (show j < B.shape.length from hj),
    vget_ok (show i < A.basetile.length from hA.2.2 ▸ hi), vget_ok (show j < B.basetile.length from hB.2.2 ▸ hj), M.bind_ok]
  exact (Check.throwIf.bind (fun _ => Check.throwIf)).mono (by simp)

theorem eq_erase_iff {A B : List Nat} {a : Nat} (hl : A.length = B.length + 1) (ha : a < A.length) :
    ((∀ i, i < a → A.getD i 0 = B.getD i 0) ∧ (∀ i, i < A.length - (a + 1) → A.getD (a + 1 + i) 0 = B.getD (a + i) 0)) ↔ B = A.eraseIdx a := by
  constructor
  · rintro ⟨h1, h2⟩
    apply List.ext_getElem
    · rw [List.length_eraseIdx_of_lt ha]; omega
    · intro i hi hi'
      rw [List.getElem_eraseIdx]
      split
      · next h =>
        have := h1 i h
        rw [getD_eq_getElem (by omega), getD_eq_getElem (by omega)] at this
        exact this.symm
      · next h =>
        have := h2 (i - a) (by omega)
        rw [getD_eq_getElem (by omega), getD_eq_getElem (by omega)] at this
        simp only [show a + 1 + (i - a) = i + 1 by omega, show a + (i - a) = i by omega] at this
        exact this.symm
  · rintro rfl
    constructor
    · intro i hi
      rw [getD_eq_getElem (by omega), getD_eq_getElem (by omega), List.getElem_eraseIdx_of_lt (h' := hi)]
    · intro i hi
      rw [getD_eq_getElem (by omega), getD_eq_getElem (by omega), List.getElem_eraseIdx_of_ge (h' := by omega)]
      congr 1
      omega

theorem checkErase_check {A B : Tensor} (hA : A.WF) (hB : B.WF) {a : Nat} (ha : a < A.ndim) (hn : A.ndim = B.ndim + 1) :
    Check (checkErase A B a) (B.shape = A.shape.eraseIdx a ∧ B.basetile = A.basetile.eraseIdx a) := by
  have h1 := eq_erase_iff (A := A.shape) (B := B.shape) (a := a) hn ha
  have h2 := eq_erase_iff (A := A.basetile) (B := B.basetile) (a := a) (by rw [hA.2.2, hB.2.2]; exact hn) (by rw [hA.2.2]; exact ha)
  refine ((Check.forCheck (P := fun i => A.shape.getD i 0 = B.shape.getD i 0 ∧ A.basetile.getD i 0 = B.basetile.getD i 0)
    (fun i hi => checkPair_check hA hB (by omega) (by omega))).bind
    (fun _ => Check.forCheck (P := fun i => A.shape.getD (a+1+i) 0 = B.shape.getD (a+i) 0 ∧ A.basetile.getD (a+1+i) 0 = B.basetile.getD (a+i) 0)
    (fun i hi => checkPair_check hA hB (by omega) (by omega)))).mono ?_
  rw [← h1, ← h2]
  simp only [Tensor.ndim, hA.2.2]
  constructor
  · rintro ⟨x, y⟩
    exact ⟨⟨fun i hi => (x i hi).1, fun i hi => (y i hi).1⟩, ⟨fun i hi => (x i hi).2, fun i hi => (y i hi).2⟩⟩
  · rintro ⟨⟨x1, x2⟩, y1, y2⟩
    exact ⟨fun i hi => ⟨x1 i hi, y1 i hi⟩, fun i hi => ⟨x2 i hi, y2 i hi⟩⟩

end NNTile
