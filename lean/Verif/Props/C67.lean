import Verif.Lib.Index64
import Verif.Props.C02
/-!
# C67: 64-bit index arithmetic does not overflow on any tile and tensor with less than `2 ^ 63` elements
-/
namespace NNTile

/-- **Construction of a tile.** For every shape with less than `2 ^ 63` elements (or with an extent which is not positive) the constructor in 64-bit arithmetic is the constructor in integers: no product
overflows. -/
theorem C67_tile {shape : List Int} (h : (∀ s ∈ shape, 0 < s) → shape.prod < 2 ^ 63) : TileTraits.make64 shape = TileTraits.make shape := by
  by_cases hp : ∀ s ∈ shape, 0 < s
  · obtain ⟨S, rfl, hS⟩ := exists_nat_of_pos hp
    have h' := h hp
    rw [prod_toInts] at h'
    exact make64_nat hS (by omega)
  · unfold TileTraits.make64 TileTraits.make
    rw [checkPositive_throws hp]
    rfl

/-- **The bound is exact.** For every other shape the constructor computes a product which does not fit: undefined behaviour, no exception. -/
theorem C67_tile_overflow {shape : List Int} (hp : ∀ s ∈ shape, 0 < s) (h : 2 ^ 63 ≤ shape.prod) : IsUB (TileTraits.make64 shape) := by
  obtain ⟨S, rfl, hS⟩ := exists_nat_of_pos hp
  rw [prod_toInts] at h
  unfold TileTraits.make64
  rw [checkPositive_ok_iff.2 hp, M.bind_ok]
  obtain ⟨m, hm⟩ := rowsLoop64_ub (S := S) (p := 1) hS (by omega) (by omega)
  rw [show ((1 : Nat) : Int) = 1 from rfl] at hm
  rw [hm]
  exact ⟨m, rfl⟩

theorem make64_ok {shape : List Int} {t : TileTraits} (h : TileTraits.make64 shape = .ok t) : ∃ S, Pos S ∧ shape = toInts S ∧ S.prod < 2 ^ 63 ∧ t = natTraits S := by
  by_cases hp : ∀ s ∈ shape, 0 < s
  · obtain ⟨S, rfl, hS⟩ := exists_nat_of_pos hp
    by_cases c : S.prod < 2 ^ 63
    · rw [make64_nat hS c, make_nat hS] at h
      exact ⟨S, hS, rfl, c, (Except.ok.inj h).symm⟩
    · obtain ⟨m, hm⟩ := C67_tile_overflow hp (by rw [prod_toInts]; omega)
      rw [hm] at h
      cases h
  · unfold TileTraits.make64 at h
    rw [checkPositive_throws hp] at h
    cases h

/-- **Index of an element.** On every tile which was constructed, for every vector of indices, right or wrong, `index_to_linear` does not overflow. -/
theorem C67_index {shape : List Int} {t : TileTraits} (h : TileTraits.make64 shape = .ok t) (index : List Int) : t.index_to_linear64 index = t.index_to_linear index := by
  obtain ⟨S, hS, rfl, hp, rfl⟩ := make64_ok h
  exact i2l64_nat hS hp index

/-- **Element of an index.** The same for `linear_to_index`. -/
theorem C67_linear {shape : List Int} {t : TileTraits} (h : TileTraits.make64 shape = .ok t) (offset : Int) : t.linear_to_index64 offset = t.linear_to_index offset := by
  obtain ⟨S, hS, rfl, hp, rfl⟩ := make64_ok h
  exact l2i64_nat hS hp offset

/-- **Construction of the tiling of a tensor.** For every shape with less than `2 ^ 63` elements and every shape of the base tile (also if it is larger than the tensor, or wrong), the constructor in 64-bit
arithmetic is the constructor in integers. -/
theorem C67_tensor {shape basetile : List Int} (h : (∀ s ∈ shape, 0 < s) → shape.prod < 2 ^ 63) : TensorTraits.make64 shape basetile = TensorTraits.make shape basetile := by
  by_cases hp : ∀ s ∈ shape, 0 < s
  · obtain ⟨S, rfl, hS⟩ := exists_nat_of_pos hp
    have h' := h hp
    rw [prod_toInts] at h'
    by_cases hl : basetile.length = S.length
    · by_cases hq : ∀ s ∈ basetile, 0 < s
      · obtain ⟨B, rfl, hB⟩ := exists_nat_of_pos hq
        rw [tensor_make64_nat hS hB (by simpa using hl) (by omega), tensor_make_nat hS hB (by simpa using hl)]
      · unfold TensorTraits.make64 TensorTraits.make
        rw [make64_nat hS (by omega), make_nat hS, M.bind_ok, M.bind_ok, throwIf_neg (by simp [hl]), if_neg (by simp [hl]), M.bind_ok, checkPositive_throws hq]
        rfl
    · unfold TensorTraits.make64 TensorTraits.make
      rw [make64_nat hS (by omega), make_nat hS, M.bind_ok, M.bind_ok, throwIf_pos (by simp [hl]), if_pos (by simp [hl])]
      rfl
  · unfold TensorTraits.make64 TensorTraits.make
    rw [C67_tile (fun c => absurd c hp), make_throws hp]
    rfl

/-- **Shape of a tile of a tensor.** On every tiling which was constructed, for every index of a tile, right or wrong, `get_tile_shape` does not overflow. -/
theorem C67_tile_shape {shape basetile : List Int} {t : TensorTraits} (h : TensorTraits.make64 shape basetile = .ok t) (index : List Int) : t.get_tile_shape64 index = t.get_tile_shape index := by
  have h' := h
  unfold TensorTraits.make64 at h'
  obtain ⟨a, ha, -⟩ := M.bind_eq_ok.1 h'
  obtain ⟨S, hS, rfl, hp, rfl⟩ := make64_ok ha
  rw [C67_tensor (fun _ => by rw [prod_toInts]; omega)] at h
  obtain ⟨S', B, hS', hB, hl, e, -, rfl⟩ := tensor_make_ok_iff.1 h
  obtain rfl := toInts_inj.1 e
  unfold TensorTraits.get_tile_shape64 TensorTraits.get_tile_shape
  have hg : (gridOf S B).prod < 2 ^ 63 := Nat.lt_of_le_of_lt (prod_le_of_forall (gridOf_le hS hl)) hp
  rw [show (natTensorTraits S B).grid.shape = toInts (gridOf S B) from rfl, tileShapeLoop64_nat fun g hgm => Nat.lt_of_le_of_lt ((gridOf_pos S B).le_prod hgm) hg]

/-- A large tensor: a matrix with `2 ^ 62` elements, whose base tile is larger than the tensor in one dimension. -/
example : ∃ t, TensorTraits.make64 [2 ^ 31, 2 ^ 31] [2 ^ 62, 1000] = .ok t ∧ t.grid.shape = [1, 2147484] ∧ t.get_tile_shape64 [0, 2147483] = .ok [2 ^ 31, 648] := by
  rw [C67_tensor (fun _ => by decide)]
  exact ⟨_, rfl, rfl, rfl⟩

/-- The next larger matrix overflows. -/
example : IsUB (TileTraits.make64 [2 ^ 32, 2 ^ 31]) := C67_tile_overflow (by decide) (by decide)

end NNTile
