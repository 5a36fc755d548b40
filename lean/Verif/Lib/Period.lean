import Verif.Lib.Rng
/-! The generator has the full period. -/
namespace NNTile

theorem affDbl_63 : (affDbl^[63] (rndA, rndC)) = (1#64, 0x8000000000000000#64) := by decide +kernel

theorem rndStep_half (x : Seed) : rndStep^[2 ^ 63] x = x + 0x8000000000000000#64 := by
  rw [← affDbl_iter, affDbl_63]
  simp

theorem rndStep_inj : Function.Injective rndStep := by
  intro x y h
  have e : ∀ z, rndStep^[2 ^ 64 - 1] (rndStep z) = z := by
    intro z
    rw [← Function.iterate_succ_apply]
    exact rndStep_period z
  rw [← e x, ← e y, h]

theorem rndStep_sub {x : Seed} {i j : Nat} (hij : i ≤ j) (h : rndStep^[i] x = rndStep^[j] x) : rndStep^[j - i] x = x := by
  have : rndStep^[i] x = rndStep^[i] (rndStep^[j - i] x) := by
    rw [← Function.iterate_add_apply, Nat.add_sub_cancel' hij]; exact h
  exact ((rndStep_inj.iterate i) this).symm

/-- An iteration count which fixes a state is a multiple of the period. -/
theorem rndStep_fixed {x : Seed} {n : Nat} (h : rndStep^[n] x = x) : n % 2 ^ 64 = 0 := by
  have hmul : ∀ k, rndStep^[k * n] x = x := by
    intro k
    rw [Nat.mul_comm, Function.iterate_mul]
    induction k with
    | zero => rfl
    | succ k ih => rw [Function.iterate_succ_apply', ih, h]
  have hdvd : ∀ m : Nat, m ≠ 0 → ∃ k q, m = 2 ^ k * (2 * q + 1) := by
    intro m
    induction m using Nat.strong_induction_on with
    | _ m ih =>
      intro hm
      by_cases h2 : m % 2 = 1
      · exact ⟨0, m / 2, by omega⟩
      · obtain ⟨k, q, e⟩ := ih (m / 2) (by omega) (by omega)
        exact ⟨k + 1, q, by rw [pow_succ, Nat.mul_right_comm, ← e]; omega⟩
  by_cases hn : n = 0
  · subst hn; rfl
  obtain ⟨k, q, e⟩ := hdvd n hn
  by_cases hk : 64 ≤ k
  · obtain ⟨l, rfl⟩ := Nat.exists_eq_add_of_le hk
    rw [e, pow_add, Nat.mul_assoc, Nat.mul_mod_right]
  · exfalso
    have h63 : 2 ^ (63 - k) * n = 2 ^ 64 * q + 2 ^ 63 := by
      rw [e, ← Nat.mul_assoc, ← pow_add, Nat.sub_add_cancel (by omega)]
      ring
    have h1 := hmul (2 ^ (63 - k))
    rw [h63, ← rndStep_mod] at h1
    rw [Nat.mul_add_mod, Nat.mod_eq_of_lt (by decide), rndStep_half] at h1
    have h2 : (0x8000000000000000#64 : Seed) = 0 := by
      have := congrArg (fun z => z - x) h1
      rwa [add_sub_cancel_left, sub_self] at this
    exact absurd h2 (by decide)

/-- Two draws coincide only if a multiple of the period lies between them. -/
theorem rndStep_eq_iff (x : Seed) (i j : Nat) : rndStep^[i] x = rndStep^[j] x ↔ i % 2 ^ 64 = j % 2 ^ 64 := by
  constructor
  · intro h
    rcases Nat.le_total i j with hij | hij
    · have := rndStep_fixed (rndStep_sub hij h)
      omega
    · have := rndStep_fixed (rndStep_sub hij h.symm)
      omega
  · intro h
    rw [← rndStep_mod i, ← rndStep_mod j, h]

/-- Every state is reached from every state. -/
theorem rndStep_reach (x t : Seed) : ∃ j < 2 ^ 64, rndStep^[j] x = t := by
  have hinj : Function.Injective (fun j : Fin (2 ^ 64) => rndStep^[j.val] x) := by
    intro i j h
    have := (rndStep_eq_iff x i j).1 h
    rw [Nat.mod_eq_of_lt i.isLt, Nat.mod_eq_of_lt j.isLt] at this
    exact Fin.ext this
  have hinj' : Function.Injective (fun j : Fin (2 ^ 64) => (rndStep^[j.val] x).toFin) := by
    intro i j h
    exact hinj (BitVec.toFin_inj.1 h)
  obtain ⟨j, hj⟩ := Finite.surjective_of_injective hinj' t.toFin
  exact ⟨j.val, j.isLt, BitVec.toFin_inj.1 hj⟩

/-- The parity alternates. -/
theorem rndStep_parity (x : Seed) (j : Nat) : (rndStep^[j] x).toNat % 2 = (x.toNat + j) % 2 := by
  induction j with
  | zero => rfl
  | succ j ih =>
    rw [Function.iterate_succ_apply']
    generalize rndStep^[j] x = y at ih ⊢
    have : (rndStep y).toNat % 2 = (y.toNat + 1) % 2 := by
      rw [rndStep, BitVec.toNat_add, BitVec.toNat_mul]
      have e1 : rndA.toNat = 6364136223846793005 := rfl
      have e2 : rndC.toNat = 1 := rfl
      rw [e1, e2]
      omega
    rw [this]; omega

end NNTile
