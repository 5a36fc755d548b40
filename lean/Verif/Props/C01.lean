import Verif.Lib.Traits
import Mathlib.Algebra.BigOperators.Ring.List
/-!
# C01 — tile index conversion is a bijection
-/
namespace NNTile

/-- `idx` is a valid multi-index of `shape`: same dimension and `0 ≤ idx[k] < shape[k]` for every `k`. -/
def Inside (shape idx : List Int) : Prop := List.Forall₂ (fun s i => 0 ≤ i ∧ i < s) shape idx

/-- Column-major offset, written as the textbook sum `∑ₖ idx[k] * ∏_{j<k} shape[j]`. -/
def colMajor (shape idx : List Int) : Int :=
  ((List.range idx.length).map fun k => idx.getD k 0 * (shape.take k).prod).sum

theorem inside_iff {S : List Nat} {idx : List Int} : Inside (toInts S) idx ↔ InBoxZ S idx := by
  induction S generalizing idx with
  | nil =>
    cases idx with
    | nil => simp only [Inside, toInts_nil]; exact ⟨fun _ => ⟨[], rfl, trivial⟩, fun _ => .nil⟩
    | cons i idx =>
      simp only [Inside, toInts_nil]
      constructor
      · intro h; cases h
      · rintro ⟨I, h, hI⟩; cases I <;> simp_all
  | cons s S ih =>
    cases idx with
    | nil =>
      simp only [Inside, toInts_cons]
      constructor
      · intro h; cases h
      · rintro ⟨I, h, hI⟩; cases I <;> simp_all
    | cons i idx =>
      rw [InBoxZ_cons, ← ih]
      simp only [Inside, toInts_cons, List.forall₂_cons]

theorem colMajor_nat (S I : List Nat) (h : InBox S I) : colMajor (toInts S) (toInts I) = (lin S I : Int) := by
  induction S generalizing I with
  | nil => cases I <;> simp_all [colMajor]
  | cons s S ih => cases I with
    | nil => simp at h
    | cons i I =>
      simp only [InBox_cons] at h
      have := ih I h.2
      simp only [colMajor, toInts_length] at this
      simp only [colMajor, toInts_cons, List.length_cons, toInts_length, List.range_succ_eq_map, List.map_cons, List.map_map,
        List.sum_cons, lin_cons]
      push_cast
      rw [← this, ← List.sum_map_mul_left]
      simp only [List.getD_cons_zero, List.take_zero, List.prod_nil, mul_one, Function.comp_def, List.getD_cons_succ,
        List.take_succ_cons, List.prod_cons]
      congr 2
      apply List.map_congr_left
      intro k _
      ring

/-- Converting an in-range linear offset to a multi-index and back is the identity, and the multi-index is inside of the tile. -/
theorem C01_linear_roundtrip {shape : List Int} {t : TileTraits} (ht : TileTraits.make shape = .ok t) (off : Int)
    (h0 : 0 ≤ off) (h1 : off < t.nelems) :
    ∃ idx, t.linear_to_index off = .ok idx ∧ Inside shape idx ∧ t.index_to_linear idx = .ok off := by
  obtain ⟨S, hS, rfl, rfl⟩ := make_ok_iff.1 ht
  obtain ⟨n, rfl⟩ := Int.eq_ofNat_of_zero_le h0
  have hn : n < S.prod := by
    have h1' : (n : Int) < (S.prod : Int) := h1
    exact_mod_cast h1'
  refine ⟨_, l2i_nat hS hn, ?_, ?_⟩
  · rw [inside_iff]; exact ⟨_, rfl, unlin_inBox hS n⟩
  · rw [i2l_nat (unlin_inBox hS n), lin_unlin hn]

/-- Converting an in-range multi-index to a linear offset and back is the identity, the offset is inside of `[0, nelems)` and is the
column-major offset. -/
theorem C01_index_roundtrip {shape : List Int} {t : TileTraits} (ht : TileTraits.make shape = .ok t) (idx : List Int)
    (h : Inside shape idx) :
    ∃ off, t.index_to_linear idx = .ok off ∧ 0 ≤ off ∧ off < t.nelems ∧ off = colMajor shape idx ∧
      t.linear_to_index off = .ok idx := by
  obtain ⟨S, hS, rfl, rfl⟩ := make_ok_iff.1 ht
  obtain ⟨I, rfl, hI⟩ := inside_iff.1 h
  refine ⟨_, i2l_nat hI, by omega, ?_, (colMajor_nat S I hI).symm, ?_⟩
  · show (lin S I : Int) < (S.prod : Int)
    exact_mod_cast lin_lt hI
  · rw [l2i_nat hS (lin_lt hI), unlin_lin hI]

/-- Multi-indices of a wrong dimension or out of range are rejected with an exception. -/
theorem C01_index_rejected {shape : List Int} {t : TileTraits} (ht : TileTraits.make shape = .ok t) (idx : List Int)
    (h : ¬ Inside shape idx) : Throws (t.index_to_linear idx) := by
  obtain ⟨S, hS, rfl, rfl⟩ := make_ok_iff.1 ht
  exact i2l_throws (fun h' => h (inside_iff.2 h'))

/-- Linear offsets out of range are rejected with an exception. -/
theorem C01_linear_rejected {shape : List Int} {t : TileTraits} (ht : TileTraits.make shape = .ok t) (off : Int)
    (h : off < 0 ∨ t.nelems ≤ off) : Throws (t.linear_to_index off) := by
  obtain ⟨S, hS, rfl, rfl⟩ := make_ok_iff.1 ht
  apply l2i_throws
  rintro ⟨h1, h2⟩
  rcases h with h | h
  · omega
  · have : (S.prod : Int) ≤ off := h
    omega

/-- `contains_index` answers exactly whether the multi-index is inside, and rejects a wrong dimension. -/
theorem C01_contains_index {shape : List Int} {t : TileTraits} (ht : TileTraits.make shape = .ok t) (idx : List Int) :
    (idx.length = shape.length → ∃ b, t.contains_index idx = .ok b ∧ (b = true ↔ Inside shape idx)) ∧
    (idx.length ≠ shape.length → Throws (t.contains_index idx)) := by
  obtain ⟨S, hS, rfl, rfl⟩ := make_ok_iff.1 ht
  simp only [toInts_length]
  constructor
  · intro hl
    refine ⟨containsLoop idx (toInts S), ?_, ?_⟩
    · simp only [TileTraits.contains_index]; rw [if_neg (by simp [hl])]
    · rw [containsLoop_iff hl, inside_iff]
  · intro hl
    simp only [TileTraits.contains_index]; rw [if_pos (by simp [hl])]
    exact ⟨_, rfl⟩

/-- Two different multi-indices never share an offset. -/
theorem C01_injective {shape : List Int} {t : TileTraits} (ht : TileTraits.make shape = .ok t) (i j : List Int) (off : Int)
    (hi : t.index_to_linear i = .ok off) (hj : t.index_to_linear j = .ok off) : i = j := by
  have hin : ∀ k, t.index_to_linear k = .ok off → Inside shape k := by
    intro k hk
    by_contra hc
    obtain ⟨m, hm⟩ := C01_index_rejected ht k hc
    rw [hm] at hk; cases hk
  obtain ⟨o1, h1, -, -, -, h2⟩ := C01_index_roundtrip ht i (hin i hi)
  obtain ⟨o2, h3, -, -, -, h4⟩ := C01_index_roundtrip ht j (hin j hj)
  rw [hi] at h1; rw [hj] at h3
  cases h1; cases h3
  rw [h2] at h4; cases h4; rfl

/-- A concrete non-trivial tile meets the hypotheses: shape `[3,4,5]`, offset `37`, index `[1,0,3]`. -/
example : ∃ t, TileTraits.make [3,4,5] = .ok t ∧ t.nelems = 60 ∧ t.linear_to_index 37 = .ok [1,0,3] ∧
    t.index_to_linear [1,0,3] = .ok 37 ∧ Throws (t.index_to_linear [1,0,5]) ∧ Throws (t.linear_to_index 60) :=
  ⟨_, rfl, rfl, rfl, rfl, ⟨_, rfl⟩, ⟨_, rfl⟩⟩
example : Inside [3,4,5] [1,0,3] := by simp [Inside]
example : ∃ t, TileTraits.make [] = .ok t ∧ t.nelems = 1 ∧ t.linear_to_index 0 = .ok [] := ⟨_, rfl, rfl, rfl⟩

end NNTile
