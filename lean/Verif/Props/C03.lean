import Verif.Props.C01
import Verif.Lib.Sum
/-!
# C03 — the tiling partitions the tensor
-/
namespace NNTile

/-- Position `loc` of tile `tile` is element `idx`: `idx[k] = tile[k]*basetile[k] + loc[k]`. -/
def IsGlobal (basetile tile loc idx : List Int) : Prop :=
  idx = List.zipWith (· + ·) (List.zipWith (· * ·) tile basetile) loc

theorem globIdx_toInts (B T L : List Nat) :
    List.zipWith (· + ·) (List.zipWith (· * ·) (toInts T) (toInts B)) (toInts L) = toInts (globIdx B T L) := by
  induction B generalizing T L with
  | nil => cases T <;> cases L <;> simp
  | cons b B ih => cases T with
    | nil => simp
    | cons t T => cases L with
      | nil => simp
      | cons l L => simp [ih]

/-- Every element of the tensor is at exactly one position of exactly one tile of the grid. -/
theorem C03_partition {shape basetile : List Int} {t : TensorTraits} (ht : TensorTraits.make shape basetile = .ok t)
    (idx : List Int) (hidx : Inside shape idx) :
    ∃! p : List Int × List Int, Inside t.grid.shape p.1 ∧ (∃ ts, t.get_tile_shape p.1 = .ok ts ∧ Inside ts p.2) ∧
      IsGlobal basetile p.1 p.2 idx := by
  obtain ⟨S, B, hS, hB, hl, rfl, rfl, rfl⟩ := tensor_make_ok_iff.1 ht
  obtain ⟨I, rfl, hI⟩ := inside_iff.1 hidx
  have hIl : I.length = B.length := by rw [hI.length, hl]
  refine ⟨(toInts (tileIdx B I), toInts (locIdx B I)), ⟨?_, ⟨_, get_tile_shape_nat hS hB hl (tileIdx_inBox hB hl hI), ?_⟩, ?_⟩, ?_⟩
  · exact inside_iff.2 ⟨_, rfl, tileIdx_inBox hB hl hI⟩
  · exact inside_iff.2 ⟨_, rfl, locIdx_inBox hB hl hI⟩
  · simp only [IsGlobal]; rw [globIdx_toInts, globIdx_tile_loc hIl]
  · rintro ⟨T, L⟩ ⟨hT, ⟨ts, hts, hL⟩, hg⟩
    obtain ⟨T, rfl, hT'⟩ := inside_iff.1 hT
    clear hT; rename' hT' => hT
    rw [get_tile_shape_nat hS hB hl hT] at hts
    cases hts
    obtain ⟨L, rfl, hL'⟩ := inside_iff.1 hL
    clear hL; rename' hL' => hL
    simp only [IsGlobal] at hg
    rw [globIdx_toInts, toInts_inj] at hg
    have hTl : T.length = S.length := by rw [hT.length, gridOf_length hl]
    obtain ⟨h1, h2⟩ := tileIdx_glob hl hTl hL
    rw [hg, h1, h2]

/-- Every position of every tile is an element of the tensor. -/
theorem C03_tile_inside {shape basetile : List Int} {t : TensorTraits} (ht : TensorTraits.make shape basetile = .ok t)
    {tile ts loc : List Int} (hts : t.get_tile_shape tile = .ok ts) (hl : Inside ts loc) :
    ∃ idx, IsGlobal basetile tile loc idx ∧ Inside shape idx := by
  obtain ⟨S, B, hS, hB, hlen, rfl, rfl, rfl⟩ := tensor_make_ok_iff.1 ht
  by_cases hT : InBoxZ (gridOf S B) tile
  · obtain ⟨T, rfl, hT⟩ := hT
    rw [get_tile_shape_nat hS hB hlen hT] at hts
    cases hts
    obtain ⟨L, rfl, hL⟩ := inside_iff.1 hl
    have hTl : T.length = S.length := by rw [hT.length, gridOf_length hlen]
    exact ⟨_, rfl, by rw [globIdx_toInts]; exact inside_iff.2 ⟨_, rfl, globIdx_inBox hlen hTl hL⟩⟩
  · obtain ⟨m, hm⟩ := get_tile_shape_throws hlen hT
    rw [hm] at hts; cases hts

theorem tileShape_le {S B T : List Nat} (hS : Pos S) (hB : Pos B) (hl : B.length = S.length) (hT : InBox (gridOf S B) T) :
    List.Forall₂ (fun (b x : Int) => 0 < x ∧ x ≤ b) (toInts B) (toInts (tileShape S B T)) := by
  induction S generalizing B T with
  | nil =>
    have : B = [] := by simpa using hl
    subst this; cases T <;> simp_all
  | cons s S ih => cases B with
    | nil => simp at hl
    | cons b B => cases T with
      | nil => simp at hT
      | cons t T =>
        have hp := tileShape_pos hS hB hl hT
        simp only [Pos_cons, List.length_cons, Nat.add_right_cancel_iff, gridOf_cons, InBox_cons, tileShape_cons] at hS hB hl hT hp
        simp only [toInts_cons, tileShape_cons, List.forall₂_cons]
        exact ⟨by omega, ih hS.2 hB.2 hl hT.2⟩

/-- The shape of a tile is defined exactly for tiles of the grid (otherwise an exception), it is non-empty and not larger than the
basetile in each dimension. -/
theorem C03_tile_shape {shape basetile : List Int} {t : TensorTraits} (ht : TensorTraits.make shape basetile = .ok t)
    (tile : List Int) :
    (Inside t.grid.shape tile → ∃ ts, t.get_tile_shape tile = .ok ts ∧ List.Forall₂ (fun b x => 0 < x ∧ x ≤ b) basetile ts) ∧
    (¬ Inside t.grid.shape tile → Throws (t.get_tile_shape tile)) := by
  obtain ⟨S, B, hS, hB, hl, rfl, rfl, rfl⟩ := tensor_make_ok_iff.1 ht
  constructor
  · intro h
    obtain ⟨T, rfl, hT⟩ := inside_iff.1 h
    exact ⟨_, get_tile_shape_nat hS hB hl hT, tileShape_le hS hB hl hT⟩
  · intro h
    exact get_tile_shape_throws hl (fun h' => h (inside_iff.2 h'))

/-- The numbers of elements of all tiles add up to the number of elements of the tensor. -/
theorem C03_sizes_sum {shape basetile : List Int} {t : TensorTraits} (ht : TensorTraits.make shape basetile = .ok t) :
    ∃ size : Nat → Int,
      (∀ k : Nat, (k : Int) < t.grid.nelems → ∃ tile ts, t.grid.linear_to_index k = .ok tile ∧ t.get_tile_shape tile = .ok ts ∧
        ∃ tt, TileTraits.make ts = .ok tt ∧ size k = tt.nelems) ∧
      ∑ k ∈ Finset.range t.grid.nelems.toNat, size k = t.toTile.nelems := by
  obtain ⟨S, B, hS, hB, hl, rfl, rfl, rfl⟩ := tensor_make_ok_iff.1 ht
  refine ⟨fun k => ((tileShape S B (unlin (gridOf S B) k)).prod : Nat), ?_, ?_⟩
  · intro k hk
    have hk' : k < (gridOf S B).prod := by
      have : (k : Int) < ((gridOf S B).prod : Int) := hk
      exact_mod_cast this
    have hT := unlin_inBox (gridOf_pos S B) k
    exact ⟨_, _, l2i_nat (gridOf_pos S B) hk', get_tile_shape_nat hS hB hl hT, _, make_nat (tileShape_pos hS hB hl hT), rfl⟩
  · show ∑ k ∈ Finset.range ((gridOf S B).prod : Int).toNat, _ = (S.prod : Int)
    rw [Int.toNat_natCast, ← Nat.cast_sum, sum_tiles hS hB hl]

/-- A concrete case with leftover tiles: shape `[5,7]`, basetile `[2,3]`. -/
example : ∃ t, TensorTraits.make [5,7] [2,3] = .ok t ∧ t.grid.shape = [3,3] ∧ t.get_tile_shape [2,2] = .ok [1,1] ∧
    t.get_tile_shape [0,2] = .ok [2,1] ∧ t.get_tile_shape [1,1] = .ok [2,3] ∧ Throws (t.get_tile_shape [3,0]) :=
  ⟨_, rfl, rfl, rfl, rfl, rfl, ⟨_, rfl⟩⟩
example : Inside [5,7] [4,6] := by simp [Inside]
/-- A basetile larger than the shape. -/
example : ∃ t, TensorTraits.make [5] [9] = .ok t ∧ t.grid.shape = [1] ∧ t.get_tile_shape [0] = .ok [5] := ⟨_, rfl, rfl, rfl⟩

end NNTile
