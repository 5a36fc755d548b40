import Verif.Spec.Mse
import Verif.Lib.RealFP
import Mathlib.Algebra.Order.BigOperators.Group.Finset
/-! Lemmas about extended reals and `Mse`. -/
namespace NNTile
open Finset
noncomputable section

namespace XReal
@[simp] theorem zero_def : (0 : XReal) = fin 0 := rfl
@[simp] theorem one_def : (1 : XReal) = fin 1 := rfl
@[simp] theorem fin_add (a b : ℝ) : fin a + fin b = fin (a + b) := rfl
@[simp] theorem fin_sub (a b : ℝ) : fin a - fin b = fin (a - b) := by
  show fin (a + -b) = _
  rw [sub_eq_add_neg]
@[simp] theorem fin_mul (a b : ℝ) : fin a * fin b = fin (a * b) := rfl
@[simp] theorem fin_div (a : ℝ) {b : ℝ} (hb : b ≠ 0) : fin a / fin b = fin (a / b) := by
  show (if b = 0 then _ else _) = _
  rw [if_neg hb]
@[simp] theorem ninf_sub (b : ℝ) : ninf - fin b = ninf := rfl
@[simp] theorem exp_fin (a : ℝ) : FP.exp (fin a) = fin (Real.exp a) := rfl
@[simp] theorem exp_ninf : FP.exp ninf = fin 0 := rfl
@[simp] theorem ltb_fin (a b : ℝ) : FP.ltb (fin a) (fin b) = true ↔ a < b := by
  show decide _ = true ↔ _
  simp
@[simp] theorem ltb_ninf (b : ℝ) : FP.ltb ninf (fin b) = true := rfl
@[simp] theorem eqb_fin (a b : ℝ) : FP.eqb (fin a) (fin b) = true ↔ a = b := by
  show decide _ = true ↔ _
  simp
@[simp] theorem isInf_fin (a : ℝ) : FP.isInf (fin a) = false := rfl
@[simp] theorem isInf_ninf : FP.isInf ninf = true := rfl
@[simp] theorem fin_inj {a b : ℝ} : fin a = fin b ↔ a = b := by simp
end XReal

namespace Mse

theorem add_comm' (a b : Mse) : add a b = add b a := by
  rcases a with _ | ⟨m, s⟩ <;> rcases b with _ | ⟨m', s'⟩ <;> simp only [add]
  rw [max_comm, _root_.add_comm]

theorem add_some (m s m' s' : ℝ) : add (pair m s) (pair m' s') =
    pair (max m m') (s * Real.exp (m - max m m') + s' * Real.exp (m' - max m m')) := rfl

theorem add_assoc' (a b c : Mse) : add (add a b) c = add a (add b c) := by
  rcases a with _ | ⟨m, s⟩
  · rfl
  rcases b with _ | ⟨m', s'⟩
  · rfl
  rcases c with _ | ⟨m'', s''⟩
  · rfl
  rw [add_some, add_some, add_some, add_some, max_assoc]
  congr 1
  rw [add_mul, add_mul, mul_assoc, mul_assoc, mul_assoc, mul_assoc, ← Real.exp_add, ← Real.exp_add, ← Real.exp_add, ← Real.exp_add,
    ← _root_.add_assoc]
  simp only [sub_add_sub_cancel]

instance : Zero Mse := ⟨empty⟩
instance : Add Mse := ⟨add⟩

instance : AddCommMonoid Mse where
  add_assoc := add_assoc'
  zero_add a := rfl
  add_zero a := by cases a <;> rfl
  add_comm := add_comm'
  nsmul := nsmulRec

theorem zero_eq : (0 : Mse) = empty := rfl
theorem add_eq (a b : Mse) : a + b = add a b := rfl

theorem Valid.add {a b : Mse} (ha : a.Valid) (hb : b.Valid) : (a + b).Valid := by
  rcases a with _ | ⟨m, s⟩
  · exact hb
  rcases b with _ | ⟨m', s'⟩
  · exact ha
  simp only [Valid] at ha hb
  rw [add_eq, add_some]
  simp only [Valid]
  positivity

theorem valid_of (v : XReal) : (of v).Valid := by
  cases v <;> simp [of, Valid]

theorem valid_zero : (0 : Mse).Valid := trivial

theorem valid_sum {ι : Type} (t : Finset ι) (x : ι → XReal) : (∑ i ∈ t, of (x i)).Valid := by
  classical
  induction t using Finset.induction_on with
  | empty => exact valid_zero
  | insert i t hi ih => rw [sum_insert hi]; exact (valid_of _).add ih

theorem expWeight_shift (m m' : ℝ) (v : XReal) : expWeight m v * Real.exp (m - m') = expWeight m' v := by
  cases v <;> simp [expWeight, ← Real.exp_add]

/-- The maximum and the sum of exponents of a collection. -/
theorem sum_spec {ι : Type} (t : Finset ι) (x : ι → XReal) :
    ((∑ i ∈ t, of (x i)) = empty ∧ ∀ i ∈ t, ∀ a, x i ≠ .fin a) ∨
    ∃ m, (∑ i ∈ t, of (x i)) = pair m (∑ i ∈ t, expWeight m (x i)) ∧ (∃ i ∈ t, x i = .fin m) ∧ ∀ i ∈ t, ∀ a, x i = .fin a → a ≤ m := by
  classical
  induction t using Finset.induction_on with
  | empty => left; simp [zero_eq]
  | insert i t hi ih =>
    rw [sum_insert hi]
    cases hxi : x i with
    | fin a =>
      right
      rcases ih with ⟨h1, h2⟩ | ⟨m, h1, ⟨j, hj, hj'⟩, h3⟩
      · refine ⟨a, ?_, ⟨i, by simp, hxi⟩, ?_⟩
        · rw [h1, sum_insert hi, hxi]
          have : ∑ i ∈ t, expWeight a (x i) = 0 := sum_eq_zero (fun j hj => by
            cases h : x j with
            | fin b => exact absurd h (h2 j hj b)
            | _ => rfl)
          rw [this]
          simp [of, expWeight, add_eq, add]
        · intro j hj b hb
          rcases mem_insert.1 hj with rfl | hj
          · rw [hxi] at hb; cases hb; exact le_rfl
          · exact absurd hb (h2 j hj b)
      · refine ⟨max a m, ?_, ?_, ?_⟩
        · rw [h1, sum_insert hi, hxi, of, add_eq, add_some, sum_mul]
          simp only [expWeight_shift, one_mul]
          rfl
        · rcases le_total a m with h | h
          · exact ⟨j, by simp [hj], by rw [max_eq_right h, hj']⟩
          · exact ⟨i, by simp, by rw [max_eq_left h, hxi]⟩
        · intro k hk b hb
          rcases mem_insert.1 hk with rfl | hk
          · rw [hxi] at hb; cases hb; exact le_max_left _ _
          · exact (h3 k hk b hb).trans (le_max_right _ _)
    | _ =>
      have e : of (x i) + ∑ i ∈ t, of (x i) = ∑ i ∈ t, of (x i) := by rw [hxi]; rfl
      rw [hxi] at e
      rw [e]
      rcases ih with ⟨h1, h2⟩ | ⟨m, h1, ⟨j, hj, hj'⟩, h3⟩
      · left
        refine ⟨h1, ?_⟩
        intro j hj b
        rcases mem_insert.1 hj with rfl | hj
        · rw [hxi]; intro h; cases h
        · exact h2 j hj b
      · right
        refine ⟨m, ?_, ⟨j, by simp [hj], hj'⟩, ?_⟩
        · rw [h1, sum_insert hi, hxi]; simp [expWeight]
        · intro k hk b hb
          rcases mem_insert.1 hk with rfl | hk
          · rw [hxi] at hb; cases hb
          · exact h3 k hk b hb

end Mse

theorem isMaxSumExp_sum {n : Nat} {r : Nat → XReal} (hr : ∀ l, l < n → (r l).NumOrMask) :
    IsMaxSumExp n r ((∑ l ∈ range n, Mse.of (r l)).enc 0) ((∑ l ∈ range n, Mse.of (r l)).enc 1) := by
  rcases Mse.sum_spec (range n) r with ⟨h1, h2⟩ | ⟨m, h1, ⟨l, hl, hl'⟩, h3⟩
  · left
    rw [h1]
    refine ⟨fun l hl => ?_, rfl, rfl⟩
    rcases hr l hl with h | ⟨a, h⟩
    · exact h
    · exact absurd h (h2 l (mem_range.2 hl) a)
  · right
    rw [h1]
    exact ⟨m, rfl, ⟨l, mem_range.1 hl, hl'⟩, fun l a hl h => h3 l (mem_range.2 hl) a h, rfl⟩

end
end NNTile
