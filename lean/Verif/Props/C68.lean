import Verif.Props.C67
/-!
# C68: the memory registered for a tile has room for its elements
-/
namespace NNTile

theorem sizeOf64_eq {n s : Nat} : sizeOf64 (n : Int) s = (n * s) % 2 ^ 64 := by
  unfold sizeOf64
  have : ((n : Int) * (s : Int)) % 2 ^ 64 = ((n * s % 2 ^ 64 : Nat) : Int) := by simp
  rw [this, Int.toNat_natCast]

theorem prod_nat {shape : List Int} {S : List Nat} (e : shape = toInts S) : shape.prod = (S.prod : Int) := by rw [e, prod_toInts]

/-- **Memory of StarPU.** If the elements of the tile take less than `2 ^ 64` bytes, exactly this many are registered. Missing: larger tiles, for which this is false. -/
theorem C68_memory_partial {shape : List Int} {s : Nat} (hs : 0 < s) (hp : ∀ x ∈ shape, 0 < x) (hn : shape.prod < 2 ^ 63) (hb : shape.prod * s < 2 ^ 64) :
    ∃ bytes, tileBytes shape s = .ok bytes ∧ (bytes : Int) = shape.prod * s := by
  obtain ⟨S, rfl, hS⟩ := exists_nat_of_pos hp
  rw [prod_toInts] at hn hb ⊢
  have h1 : S.prod * s < 2 ^ 64 := by exact_mod_cast hb
  have h2 : 0 < S.prod * s := Nat.mul_pos hS.prod_pos hs
  refine ⟨S.prod * s, ?_, by simp⟩
  unfold tileBytes registerBytes
  rw [make64_nat hS (by omega), make_nat hS, M.bind_ok, show (natTraits S).nelems = (S.prod : Int) from rfl, sizeOf64_eq, Nat.mod_eq_of_lt h1, throwIf_neg (by omega), M.bind_ok]

/-- Elements of one or two bytes (`bool_t`, `fp16_t`) are always safe: a tile which can be constructed takes less than `2 ^ 64` bytes. -/
theorem C68_small {shape : List Int} {s : Nat} (hs : 0 < s) (h2 : s ≤ 2) {t : TileTraits} (ht : TileTraits.make64 shape = .ok t) : ∃ bytes, tileBytes shape s = .ok bytes ∧ (bytes : Int) = shape.prod * s := by
  obtain ⟨S, hS, rfl, hp, -⟩ := make64_ok ht
  refine C68_memory_partial hs (toInts_pos.2 hS) (by rw [prod_toInts]; omega) ?_
  rw [prod_toInts]
  have : S.prod * s ≤ S.prod * 2 := Nat.mul_le_mul_left _ h2
  have h3 : S.prod * s < 2 ^ 64 := by omega
  exact_mod_cast h3

/-- **Too large tiles.** If the bytes do not fit into `size_t`, fewer are registered than the elements take, without an exception (unless none are left). -/
theorem C68_overflow {shape : List Int} {s : Nat} (hp : ∀ x ∈ shape, 0 < x) (hn : shape.prod < 2 ^ 63) (hb : 2 ^ 64 ≤ shape.prod * s) :
    Throws (tileBytes shape s) ∨ ∃ bytes, tileBytes shape s = .ok bytes ∧ (bytes : Int) < shape.prod * s := by
  obtain ⟨S, rfl, hS⟩ := exists_nat_of_pos hp
  rw [prod_toInts] at hn hb ⊢
  have h1 : 2 ^ 64 ≤ S.prod * s := by exact_mod_cast hb
  have h2 : S.prod * s % 2 ^ 64 < 2 ^ 64 := Nat.mod_lt _ (by decide)
  unfold tileBytes registerBytes
  rw [make64_nat hS (by omega), make_nat hS, M.bind_ok, show (natTraits S).nelems = (S.prod : Int) from rfl, sizeOf64_eq]
  by_cases c : S.prod * s % 2 ^ 64 = 0
  · rw [throwIf_pos c]
    exact .inl ⟨_, rfl⟩
  · rw [throwIf_neg c, M.bind_ok]
    refine .inr ⟨_, rfl, ?_⟩
    have h3 : S.prod * s % 2 ^ 64 < S.prod * s := by omega
    exact_mod_cast h3

/-- It happens: a tile of `2 ^ 62 + 1` elements of type `fp32_t` gets memory for one element, and one of `2 ^ 61 + 1` elements of type `fp64_t` as well. -/
theorem C68_overflow_reached : tileBytes [2 ^ 62 + 1] 4 = .ok 4 ∧ tileBytes [2 ^ 61 + 1] 8 = .ok 8 := by
  constructor <;> rfl

/-- **Memory of the user.** The constructor from a buffer with `ptrNelems` elements succeeds exactly if the tile is not larger than the buffer and its bytes fit into `size_t`; then exactly the bytes of the
elements are registered, which are in the buffer. Otherwise it raises an exception (if the tile can be constructed at all). -/
theorem C68_user_memory {shape : List Int} {s : Nat} (hs : 0 < s) (hp : ∀ x ∈ shape, 0 < x) (hn : shape.prod < 2 ^ 63) (ptrNelems : Int) :
    (shape.prod ≤ ptrNelems ∧ shape.prod * s < 2 ^ 64 → ∃ bytes, tilePtrBytes shape ptrNelems s = .ok bytes ∧ (bytes : Int) = shape.prod * s ∧ (bytes : Int) ≤ ptrNelems * s) ∧
    (¬ (shape.prod ≤ ptrNelems ∧ shape.prod * s < 2 ^ 64) → Throws (tilePtrBytes shape ptrNelems s)) := by
  obtain ⟨S, rfl, hS⟩ := exists_nat_of_pos hp
  rw [prod_toInts] at hn ⊢
  have hpos : 0 < S.prod * s := Nat.mul_pos hS.prod_pos hs
  have e0 : tilePtrBytes (toInts S) ptrNelems s = (tileGetSize (S.prod : Int) ptrNelems s >>= registerBytes) := by
    unfold tilePtrBytes
    rw [make64_nat hS (by omega), make_nat hS, M.bind_ok]
  have e1 : ((S.prod : Int)) % 2 ^ 64 = (S.prod : Int) := Int.emod_eq_of_lt (by omega) (by omega)
  have e2 : ((S.prod : Int)) * (s : Int) = ((S.prod * s : Nat) : Int) := by simp
  rw [e0, tileGetSize, sizeOf64_eq, e1, e2]
  constructor
  · rintro ⟨h1, h2⟩
    have h3 : S.prod * s < 2 ^ 64 := by exact_mod_cast h2
    refine ⟨S.prod * s, ?_, rfl, ?_⟩
    · rw [throwIf_neg (by omega), M.bind_ok]
      dsimp only
      rw [Nat.mod_eq_of_lt h3, Nat.mul_div_cancel _ hs, throwIf_neg (by simp), M.bind_ok, M.bind_ok, registerBytes, throwIf_neg (by omega), M.bind_ok]
    · rw [← e2]
      exact Int.mul_le_mul_of_nonneg_right h1 (by omega)
  · intro h
    have key : ∀ {x : M Nat} {f : Nat → M Nat}, Throws x → Throws (x >>= f) := fun ⟨m, hm⟩ => ⟨m, by rw [hm]; rfl⟩
    refine key ?_
    refine throws_step fun h1 => ?_
    have h2 : 2 ^ 64 ≤ S.prod * s := by
      by_contra c
      exact h ⟨by omega, by exact_mod_cast (by omega : S.prod * s < 2 ^ 64)⟩
    refine throws_pos ?_
    intro c
    have c' : S.prod * s % 2 ^ 64 / s = S.prod := by exact_mod_cast c
    have h3 : S.prod * s % 2 ^ 64 < S.prod * s := by
      have := Nat.mod_lt (S.prod * s) (show 0 < 2 ^ 64 by decide)
      omega
    have h4 : S.prod * s % 2 ^ 64 / s < S.prod := Nat.div_lt_of_lt_mul (by rw [Nat.mul_comm s]; exact h3)
    omega

/-- A tile of six floats in a buffer of eight. -/
example : tileBytes [2, 3] 4 = .ok 24 ∧ tilePtrBytes [2, 3] 8 4 = .ok 24 ∧ Throws (tilePtrBytes [2, 3] 5 4) := ⟨rfl, rfl, ⟨_, rfl⟩⟩

end NNTile
