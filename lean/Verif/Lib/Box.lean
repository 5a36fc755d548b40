import Verif.Spec.Box
import Verif.Lib.Sum
import Verif.Lib.Axis
import Verif.Lib.Proj
import Mathlib.Algebra.BigOperators.Group.Finset.Sigma
/-! Sums over boxes. -/
namespace NNTile
open Finset

theorem box_eq_image {S : List Nat} (hS : Pos S) : box S = (range S.prod).image (unlin S) := by
  ext I
  simp only [mem_box, mem_image, mem_range]
  constructor
  · intro h
    exact ⟨lin S I, lin_lt h, unlin_lin h⟩
  · rintro ⟨k, _, rfl⟩
    exact unlin_inBox hS k

theorem sum_box {β : Type _} [AddCommMonoid β] {S : List Nat} (hS : Pos S) (F : List Nat → β) :
    ∑ I ∈ box S, F I = ∑ k ∈ range S.prod, F (unlin S k) := by
  rw [box_eq_image hS, sum_image]
  intro a ha b hb h
  simp only [coe_range, Set.mem_Iio] at ha hb
  rw [← lin_unlin ha, ← lin_unlin hb, h]

/-- A sum over all elements of a tensor is the sum over the tiles of the sums over their elements. -/
theorem sum_box_tiles {β : Type _} [AddCommMonoid β] {S B : List Nat} (hS : Pos S) (hB : Pos B) (hl : B.length = S.length) (F : List Nat → β) :
    ∑ I ∈ box S, F I = ∑ t ∈ box (gridOf S B), ∑ l ∈ box (tileShape S B t), F (globIdx B t l) := by
  rw [sum_sigma']
  symm
  refine sum_bij' (fun p _ => globIdx B p.1 p.2) (fun I _ => ⟨tileIdx B I, locIdx B I⟩) ?_ ?_ ?_ ?_ ?_
  · rintro ⟨t, l⟩ h
    simp only [mem_sigma, mem_box] at h ⊢
    exact globIdx_inBox hl (by rw [h.1.length, gridOf_length hl]) h.2
  · intro I h
    simp only [mem_sigma, mem_box] at h ⊢
    exact ⟨tileIdx_inBox hB hl h, locIdx_inBox hB hl h⟩
  · rintro ⟨t, l⟩ h
    simp only [mem_sigma, mem_box] at h ⊢
    have := tileIdx_glob hl (by rw [h.1.length, gridOf_length hl]) h.2
    rw [this.1, this.2]
  · intro I h
    rw [mem_box] at h
    exact globIdx_tile_loc (by rw [h.length, hl])
  · rintro ⟨t, l⟩ h
    rfl

/-- The same along one dimension. -/
theorem sum_tiles_fn {β : Type _} [AddCommMonoid β] {s b : Nat} (hs : 0 < s) (hb : 0 < b) (F : Nat → β) :
    ∑ j ∈ range ((s - 1) / b + 1), ∑ i ∈ range (min b (s - j * b)), F (j * b + i) = ∑ i ∈ range s, F i := by
  have key : ∀ n, ∑ j ∈ range n, ∑ i ∈ range (min b (s - j * b)), F (j * b + i) = ∑ i ∈ range (min s (n * b)), F i := by
    intro n
    induction n with
    | zero => simp
    | succ n ih =>
      rw [sum_range_succ, ih, Nat.succ_mul]
      by_cases h : n * b ≤ s
      · rw [show min s (n * b) = n * b by omega, ← sum_range_add, show n * b + min b (s - n * b) = min s (n * b + b) by omega]
      · rw [show min b (s - n * b) = 0 by omega, show min s (n * b) = s by omega, show min s (n * b + b) = s by omega]; simp
  rw [key]
  congr 2
  have := Nat.lt_mul_div_succ (s - 1) hb
  rw [Nat.mul_comm] at this
  omega

end NNTile
