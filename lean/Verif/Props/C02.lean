import Verif.Lib.Traits
import Mathlib.Data.List.Infix
import Mathlib.Algebra.BigOperators.Group.List.Lemmas
/-!
# C02 — tile construction accepts exactly positive shapes and computes consistent metadata
-/
namespace NNTile

/-- Construction succeeds exactly on shapes with positive extents and otherwise throws. -/
theorem C02_accepts_iff (shape : List Int) :
    ((∃ t, TileTraits.make shape = .ok t) ↔ ∀ s ∈ shape, 0 < s) ∧
    ((∃ s ∈ shape, s ≤ 0) → Throws (TileTraits.make shape)) := by
  constructor
  · constructor
    · rintro ⟨t, ht⟩
      obtain ⟨S, hS, rfl, -⟩ := make_ok_iff.1 ht
      exact toInts_pos.2 hS
    · intro h
      obtain ⟨S, rfl, hS⟩ := exists_nat_of_pos h
      exact ⟨_, make_nat hS⟩
  · rintro ⟨s, hs, h⟩
    exact ⟨_, make_throws (fun h' => by have := h' s hs; omega)⟩

theorem rows_getElem {S : List Nat} (i : Nat) (hi : i ≤ S.length) :
    ((1 : Int) :: (rowsLoop 1 (toInts S)).1)[i]? = some (((S.take i).prod : Nat) : Int) := by
  have h := rowsLoop_nat 1 S
  rw [show ((1 : Nat) : Int) = 1 from rfl] at h
  rw [h]
  have aux : ∀ (S : List Nat) (p i : Nat), i ≤ S.length → (strideFrom p (S ++ [1]))[i]? = some (p * (S.take i).prod) := by
    intro S
    induction S with
    | nil => intro p i hi; simp at hi; subst hi; simp [strideFrom]
    | cons s S ih =>
      intro p i hi
      cases i with
      | zero => simp [strideFrom]
      | succ i => simp at hi; simp [strideFrom, ih (p * s) i hi, mul_assoc]
  cases i with
  | zero => simp
  | succ i =>
    have := aux S 1 (i+1) hi
    simp only [List.getElem?_cons_succ]
    simp only [toInts, List.getElem?_map, List.getElem?_tail, this]
    simp

theorem cols_getElem {S : List Nat} (i : Nat) (hi : i ≤ S.length) :
    (toInts (S.tails.map List.prod))[i]? = some (((S.drop i).prod : Nat) : Int) := by
  induction S generalizing i with
  | nil => simp at hi; subst hi; simp
  | cons s S ih =>
    cases i with
    | zero => simp
    | succ i => simp at hi; simpa using ih i hi

theorem prod_toInts (S : List Nat) : (toInts S).prod = (S.prod : Int) := by
  induction S with
  | nil => simp
  | cons s S ih => simp [ih]

theorem toInts_take (S : List Nat) (i : Nat) : (toInts S).take i = toInts (S.take i) := by simp [toInts, List.map_take]
theorem toInts_drop (S : List Nat) (i : Nat) : (toInts S).drop i = toInts (S.drop i) := by simp [toInts, List.map_drop]

/-- All metadata of a constructed tile: dimension, shape, number of elements, the matrix view of every split (with
`rows * cols = nelems`), and the strides. -/
theorem C02_metadata {shape : List Int} {t : TileTraits} (ht : TileTraits.make shape = .ok t) :
    t.ndim = shape.length ∧ t.shape = shape ∧ t.nelems = shape.prod ∧ 0 < t.nelems ∧
    t.rows.length = shape.length + 1 ∧ t.cols.length = shape.length + 1 ∧ t.stride.length = shape.length ∧
    (∀ i, i ≤ shape.length →
      t.rows[i]? = some (shape.take i).prod ∧ t.cols[i]? = some (shape.drop i).prod ∧
      (shape.take i).prod * (shape.drop i).prod = t.nelems) ∧
    (∀ i, i < shape.length → t.stride[i]? = some (shape.take i).prod) := by
  obtain ⟨S, hS, rfl, rfl⟩ := make_ok_iff.1 ht
  have h := rowsLoop_nat 1 S
  rw [show ((1 : Nat) : Int) = 1 from rfl] at h
  refine ⟨by simp, rfl, (prod_toInts S).symm, ?_, ?_, ?_, by simp, ?_, ?_⟩
  · show (0 : Int) < (S.prod : Int)
    exact_mod_cast hS.prod
  · simp [h]
  · simp [List.length_tails]
  · intro i hi
    simp only [toInts_length] at hi
    refine ⟨?_, ?_, ?_⟩
    · rw [rows_getElem i hi, toInts_take, prod_toInts]
    · rw [cols_getElem i hi, toInts_drop, prod_toInts]
    · rw [toInts_take, toInts_drop, prod_toInts, prod_toInts, ← Nat.cast_mul, List.prod_take_mul_prod_drop]
  · intro i hi
    simp only [toInts_length] at hi
    have h1 := rows_getElem i hi.le
    have h2 := rows_take_nat S
    rw [toInts_take, prod_toInts, ← h1]
    show (toInts (strideFrom 1 S))[i]? = _
    rw [← h2, List.getElem?_take, if_pos hi]

example : ∃ t, TileTraits.make [3,4,5] = .ok t ∧ t.rows = [1,3,12,60] ∧ t.cols = [60,20,5,1] ∧ t.stride = [1,3,12] :=
  ⟨_, rfl, rfl, rfl, rfl⟩
example : Throws (TileTraits.make [3,0,5]) := ⟨_, rfl⟩

end NNTile
