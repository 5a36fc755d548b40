import Verif.Lib.Rng
/-!
# C06 — random generator jump-ahead is exact
-/
namespace NNTile

/-- Jumping by `n` normal numbers is exactly `2n` single uniform draws, for every 64-bit seed and every 64-bit `n` (even those for
which `n <<= 1` overflows). -/
theorem C06_jump_exact (n seed : Seed) : rndJump n seed = rndStep^[2 * n.toNat] seed := rndJump_eq n seed

/-- Generating `n` normal numbers one after another leaves the generator in the state reached by jumping by `n`. -/
theorem C06_jump_eq_generate {α υ : Type _} (uniform : Seed → υ) (normal : υ → υ → α) (n : Nat) (seed : Seed) :
    (fun s => (chameleonRandn uniform normal s).2)^[n] seed = rndJump (BitVec.ofNat 64 n) seed := by
  rw [rndJump_ofNat, Function.iterate_mul]
  rfl

/-- Jumps compose additively. -/
theorem C06_jump_add (m n : Nat) (seed : Seed) :
    rndJump (BitVec.ofNat 64 m) (rndJump (BitVec.ofNat 64 n) seed) = rndJump (BitVec.ofNat 64 (m + n)) seed := by
  simp only [rndJump_ofNat]
  rw [← Function.iterate_add_apply]
  congr 1; ring

/-- Jumping by zero changes nothing. -/
theorem C06_jump_zero (seed : Seed) : rndJump 0#64 seed = seed := by
  rw [rndJump_eq]; rfl

/-- A jump never merges two different states. -/
theorem C06_jump_injective (n s t : Seed) (h : rndJump n s = rndJump n t) : s = t := by
  rw [rndJump_eq, rndJump_eq] at h
  have key : ∀ x : Seed, rndStep^[(2 ^ 64 - 1) * (2 * n.toNat)] (rndStep^[2 * n.toNat] x) = x := by
    intro x
    rw [← Function.iterate_add_apply, ← Nat.succ_mul, show (2 ^ 64 - 1 : Nat).succ = 2 ^ 64 from rfl, ← rndStep_mod,
      Nat.mul_mod_right]
    rfl
  rw [← key s, ← key t, h]

/-- A concrete jump. -/
example : rndJump 3#64 100#64 = rndStep (rndStep (rndStep (rndStep (rndStep (rndStep 100#64))))) := by
  rw [C06_jump_exact]; rfl

end NNTile
