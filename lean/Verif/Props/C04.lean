import Verif.Props.C03
/-!
# C04 — tensor construction validates its arguments
-/
namespace NNTile

/-- Tensor traits are constructed exactly from positive shapes and basetiles of equal dimension, otherwise an exception is thrown. -/
theorem C04_traits_accept_iff (shape basetile : List Int) :
    ((∃ t, TensorTraits.make shape basetile = .ok t) ↔
      (∀ s ∈ shape, 0 < s) ∧ (∀ b ∈ basetile, 0 < b) ∧ basetile.length = shape.length) ∧
    ((¬ ∃ t, TensorTraits.make shape basetile = .ok t) → Throws (TensorTraits.make shape basetile)) := by
  have key : (∃ t, TensorTraits.make shape basetile = .ok t) ↔
      (∀ s ∈ shape, 0 < s) ∧ (∀ b ∈ basetile, 0 < b) ∧ basetile.length = shape.length := by
    constructor
    · rintro ⟨t, ht⟩
      obtain ⟨S, B, hS, hB, hl, rfl, rfl, rfl⟩ := tensor_make_ok_iff.1 ht
      exact ⟨toInts_pos.2 hS, toInts_pos.2 hB, by simpa using hl⟩
    · rintro ⟨h1, h2, h3⟩
      obtain ⟨S, rfl, hS⟩ := exists_nat_of_pos h1
      obtain ⟨B, rfl, hB⟩ := exists_nat_of_pos h2
      exact ⟨_, tensor_make_nat hS hB (by simpa using h3)⟩
  refine ⟨key, fun h => tensor_make_throws (fun h' => h (key.2 h'))⟩

/-- A tensor is constructed exactly when the distribution has one entry per tile, otherwise an exception is thrown; tile number `k`
then has exactly the shape of the `k`-th cell of the grid in column-major order; tile access succeeds exactly inside of the grid. -/
theorem C04_tensor {shape basetile : List Int} {tr : TensorTraits} (htr : TensorTraits.make shape basetile = .ok tr)
    (distr : List Int) :
    ((distr.length : Int) ≠ tr.grid.nelems → Throws (TensorMeta.make tr distr)) ∧
    ((distr.length : Int) = tr.grid.nelems → ∃ t, TensorMeta.make tr distr = .ok t ∧ t.tile_distr = distr ∧
      (∀ k : Int, 0 ≤ k → k < tr.grid.nelems → ∃ tile ts tt, tr.grid.linear_to_index k = .ok tile ∧
        tr.get_tile_shape tile = .ok ts ∧ TileTraits.make ts = .ok tt ∧
        t.get_tile k = .ok tt ∧ t.get_tile_traits k = .ok tt ∧ t.get_tile_at tile = .ok tt) ∧
      (∀ k : Int, (k < 0 ∨ tr.grid.nelems ≤ k) → Throws (t.get_tile k) ∧ IsUB (t.get_tile_traits k)) ∧
      (∀ tile, ¬ Inside tr.grid.shape tile → Throws (t.get_tile_at tile))) := by
  obtain ⟨S, B, hS, hB, hl, rfl, rfl, rfl⟩ := tensor_make_ok_iff.1 htr
  constructor
  · intro h
    simp only [TensorMeta.make]
    rw [if_pos h]; exact ⟨_, rfl⟩
  · intro h
    have hlen : distr.length = (gridOf S B).prod := by
      have : (distr.length : Int) = ((gridOf S B).prod : Int) := h
      exact_mod_cast this
    let l := (List.range (gridOf S B).prod).map fun k => natTraits (tileShape S B (unlin (gridOf S B) k))
    have hmk : TensorMeta.make (natTensorTraits S B) distr = .ok ⟨natTensorTraits S B, l, distr⟩ := by
      simp only [TensorMeta.make]
      rw [if_neg (by simp [hlen])]
      rw [Int.toNat_natCast, tileTraitsLoop_nat hS hB hl _ le_rfl]
      rfl
    have hget : ∀ k : Nat, k < (gridOf S B).prod →
        l[k]? = some (natTraits (tileShape S B (unlin (gridOf S B) k))) := by
      intro k hk; simp [l, hk]
    have hnone : ∀ k : Nat, ¬ k < (gridOf S B).prod → l[k]? = none := by
      intro k hk; simp [l]; omega
    refine ⟨_, hmk, rfl, ?_, ?_, ?_⟩
    · intro k h0 h1
      obtain ⟨n, rfl⟩ := Int.eq_ofNat_of_zero_le h0
      have hn : n < (gridOf S B).prod := by
        have : (n : Int) < ((gridOf S B).prod : Int) := h1
        exact_mod_cast this
      have hT := unlin_inBox (gridOf_pos S B) n
      refine ⟨_, _, _, l2i_nat (gridOf_pos S B) hn, get_tile_shape_nat hS hB hl hT, make_nat (tileShape_pos hS hB hl hT), ?_, ?_, ?_⟩
      · simp only [TensorMeta.get_tile]
        rw [if_neg (by omega), Int.toNat_natCast, hget n hn]
      · simp only [TensorMeta.get_tile_traits]
        rw [if_neg (by omega), Int.toNat_natCast, hget n hn]
      · simp only [TensorMeta.get_tile_at]
        rw [i2l_nat hT, lin_unlin hn, M.bind_ok]
        simp only [TensorMeta.get_tile_traits]
        rw [if_neg (by omega), Int.toNat_natCast, hget n hn]
    · intro k hk
      constructor
      · simp only [TensorMeta.get_tile]
        rw [if_pos (by omega)]; exact ⟨_, rfl⟩
      · simp only [TensorMeta.get_tile_traits]
        split
        · exact ⟨_, rfl⟩
        · rename_i hk0
          have hk2 : ((gridOf S B).prod : Int) ≤ k := by
            rcases hk with hk | hk
            · omega
            · exact hk
          rw [hnone _ (by omega)]
          exact ⟨_, rfl⟩
    · intro tile htile
      simp only [TensorMeta.get_tile_at]
      obtain ⟨m, hm⟩ := C01_index_rejected (make_nat (gridOf_pos S B)) tile htile
      rw [hm]; exact ⟨m, rfl⟩

example : ∃ tr t, TensorTraits.make [5,4] [2,3] = .ok tr ∧ tr.grid.nelems = 6 ∧ TensorMeta.make tr [0,0,0,1,1,1] = .ok t ∧
    (∃ tt, t.get_tile 5 = .ok tt ∧ tt.shape = [1,1]) ∧ Throws (t.get_tile 6) := by
  refine ⟨_, _, rfl, rfl, rfl, ⟨_, rfl, rfl⟩, ⟨_, rfl⟩⟩

end NNTile
