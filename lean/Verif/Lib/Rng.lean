import Verif.Model.Rng
import Verif.Lib.Core
import Mathlib.Data.BitVec
import Mathlib.Logic.Function.Iterate
import Mathlib.Tactic.Ring
/-! Helper lemmas about the random generator. -/
namespace NNTile

theorem affine_sq (a c x : Seed) : a * (a * x + c) + c = (a * a) * x + c * (a + 1#64) := by
  have : (1#64 : Seed) = 1 := rfl
  rw [this]; ring

theorem jumpLoop_eq (fuel : Nat) (n a c ran : Seed) (f : Seed → Seed) (hf : ∀ x, a * x + c = f x)
    (hn : n.toNat < 2 ^ fuel) : jumpLoop fuel n a c ran = f^[n.toNat] ran := by
  induction fuel generalizing n a c ran f with
  | zero =>
    have : n.toNat = 0 := by simpa using hn
    simp [jumpLoop, this]
  | succ fuel ih =>
    rw [jumpLoop]
    split
    · rename_i h; subst h; simp
    · have h2 : (n >>> 1).toNat = n.toNat / 2 := by
        rw [BitVec.toNat_ushiftRight, Nat.shiftRight_eq_div_pow, pow_one]
      have h3 : (n &&& 1#64 ≠ 0#64) ↔ n.toNat % 2 = 1 := by
        have : (n &&& 1#64).toNat = n.toNat % 2 := by
          rw [BitVec.toNat_and]
          simp [Nat.and_one_is_mod]
        rw [ne_eq, ← BitVec.toNat_inj, this]
        simp
      have hsq : ∀ x, (a * a) * x + c * (a + 1#64) = (f ∘ f) x := by
        intro x; rw [← affine_sq, hf, hf]; rfl
      simp only []
      rw [ih (n >>> 1) (a * a) (c * (a + 1#64)) _ (f ∘ f) hsq (by rw [h2]; omega), h2]
      have hff : (f ∘ f) = f^[2] := rfl
      rw [hff, ← Function.iterate_mul]
      by_cases hb : n.toNat % 2 = 1
      · rw [if_pos (h3.2 hb), hf, ← Function.iterate_succ_apply]
        congr 1; omega
      · rw [if_neg (fun h => hb (h3.1 h))]
        congr 1; omega

/-- Doubling of an affine map. -/
def affDbl (p : Seed × Seed) : Seed × Seed := (p.1 * p.1, p.2 * (p.1 + 1#64))

theorem affDbl_iter (k : Nat) (x : Seed) :
    (affDbl^[k] (rndA, rndC)).1 * x + (affDbl^[k] (rndA, rndC)).2 = rndStep^[2 ^ k] x := by
  induction k generalizing x with
  | zero => rfl
  | succ k ih =>
    rw [Function.iterate_succ_apply']
    simp only [affDbl]
    rw [← affine_sq, ih, ih, ← Function.iterate_add_apply, pow_succ, Nat.mul_two]

theorem affDbl_64 : affDbl^[64] (rndA, rndC) = (1#64, 0#64) := by decide +kernel

/-- The generator has a period dividing `2^64`. -/
theorem rndStep_period (x : Seed) : rndStep^[2 ^ 64] x = x := by
  rw [← affDbl_iter, affDbl_64]
  simp

theorem rndStep_mod (n : Nat) (x : Seed) : rndStep^[n % 2 ^ 64] x = rndStep^[n] x := by
  have : ∀ k m : Nat, rndStep^[2 ^ 64 * k + m] x = rndStep^[m] x := by
    intro k m
    rw [Nat.add_comm, Function.iterate_add_apply]
    congr 1
    rw [Function.iterate_mul]
    induction k with
    | zero => rfl
    | succ k ih =>
      rw [Function.iterate_succ_apply', ih, rndStep_period]
  conv_rhs => rw [← Nat.div_add_mod n (2 ^ 64)]
  rw [this]

theorem rndJump_eq (n seed : Seed) : rndJump n seed = rndStep^[2 * n.toNat] seed := by
  rw [rndJump, jumpLoop_eq 64 _ rndA rndC seed rndStep (fun _ => rfl) (BitVec.isLt _), BitVec.toNat_shiftLeft,
    Nat.shiftLeft_eq, pow_one, rndStep_mod, Nat.mul_comm]

theorem rndJump_ofNat (n : Nat) (seed : Seed) : rndJump (BitVec.ofNat 64 n) seed = rndStep^[2 * n] seed := by
  rw [rndJump_eq, BitVec.toNat_ofNat]
  rw [← rndStep_mod (2 * (n % 2 ^ 64)), ← rndStep_mod (2 * n), Nat.mul_mod_mod]

end NNTile
