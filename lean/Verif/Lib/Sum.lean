import Mathlib.Algebra.BigOperators.Ring.Finset
import Mathlib.Algebra.BigOperators.Intervals
import Verif.Lib.Index
/-! Helper lemmas about sums over index boxes. -/
namespace NNTile
open Finset

/-- Sum over a matrix stored column-major. -/
theorem sum_range_mul {β : Type _} [AddCommMonoid β] (m n : Nat) (f : Nat → β) :
    ∑ k ∈ range (m * n), f k = ∑ j ∈ range n, ∑ i ∈ range m, f (i + m * j) := by
  induction n with
  | zero => simp
  | succ n ih =>
    rw [Nat.mul_succ, sum_range_add, ih, sum_range_succ]
    congr 1
    apply sum_congr rfl
    intro i _
    rw [Nat.add_comm]

/-- Sizes of the tiles along one dimension add up to the extent. -/
theorem sum_tiles_1d (s b n : Nat) : ∑ t ∈ range n, min b (s - t * b) = min s (n * b) := by
  induction n with
  | zero => simp
  | succ n ih =>
    rw [sum_range_succ, ih, Nat.succ_mul]
    omega

theorem sum_tiles {S B : List Nat} (hS : Pos S) (hB : Pos B) (hl : B.length = S.length) :
    ∑ k ∈ range (gridOf S B).prod, (tileShape S B (unlin (gridOf S B) k)).prod = S.prod := by
  induction S generalizing B with
  | nil => simp
  | cons s S ih => cases B with
    | nil => simp at hl
    | cons b B =>
      simp only [Pos_cons, List.length_cons, Nat.add_right_cancel_iff] at hS hB hl
      simp only [gridOf_cons, List.prod_cons, unlin_cons, tileShape_cons]
      rw [sum_range_mul]
      have : ∀ j ∈ range (gridOf S B).prod, ∑ i ∈ range ((s - 1) / b + 1),
          min b (s - (i + ((s - 1) / b + 1) * j) % ((s - 1) / b + 1) * b) *
            (tileShape S B (unlin (gridOf S B) ((i + ((s - 1) / b + 1) * j) / ((s - 1) / b + 1)))).prod
          = s * (tileShape S B (unlin (gridOf S B) j)).prod := by
        intro j _
        have hg : 0 < (s - 1) / b + 1 := Nat.succ_pos _
        rw [sum_congr rfl (g := fun i => min b (s - i * b) * (tileShape S B (unlin (gridOf S B) j)).prod)]
        · rw [← sum_mul, sum_tiles_1d]
          congr 1
          apply Nat.min_eq_left
          have := Nat.lt_mul_div_succ (s - 1) hB.1
          rw [Nat.mul_comm]
          have h2 : b * ((s-1)/b + 1) = b * ((s - 1) / b).succ := rfl
          omega
        · intro i hi
          rw [mem_range] at hi
          simp only [Nat.add_mul_mod_self_left, Nat.mod_eq_of_lt hi, Nat.add_mul_div_left _ _ hg, Nat.div_eq_of_lt hi,
            Nat.zero_add]
      rw [sum_congr rfl this, ← mul_sum, ih hS.2 hB.2 hl]

end NNTile
