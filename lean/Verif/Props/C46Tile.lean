import Verif.Model.TileNumpy
import Verif.Spec.Tile
import Verif.Props.C46
/-!
# C46 (continued): exchange of single tiles with numpy arrays
-/
namespace NNTile
variable {α : Type}

private theorem tile_check_ok {T : Tile} : npCheckTile T T.shape = .ok () := by
  unfold npCheckTile
  rw [throwIf_neg (by simp [Tile.ndim]), M.bind_ok]
  exact (forN_throwIf _ _ _).1 fun i _ => by simp

private theorem tile_check_throws {T : Tile} {sh : List Nat} (h : sh ≠ T.shape) : Throws (npCheckTile T sh) := by
  unfold npCheckTile
  refine throws_step fun hl => ?_
  rw [Tile.ndim, not_not] at hl
  refine ⟨_, (forN_throwIf _ _ _).2 ?_⟩
  by_contra hno
  refine h (List.ext_getElem hl.symm fun i h1 h2 => ?_)
  by_contra hi
  exact hno ⟨i, h2, by simpa [List.getD_eq_getElem?_getD, h1, h2] using hi⟩

/-- The memory of a tile and that of an array which fits have the same size, and elements with the same index have the same place in them. -/
private theorem tile_places {T : Tile} {a : NpArray α} (ha : a.Fits T.one) : a.data.size = T.nelems ∧
    ∀ I, InBox T.shape I → ∃ I', InBox a.shape I' ∧ npIndex T.one I' = I ∧ lin a.shape I' = lin T.shape I := by
  obtain ⟨h1, h2⟩ := ha
  change a.shape = (if T.shape = [] then [1] else T.shape) at h1
  by_cases h0 : T.shape = []
  · rw [if_pos h0] at h1
    refine ⟨by rw [h2, h1, Tile.nelems, h0]; rfl, fun I hI => ⟨[0], by rw [h1]; simp, ?_, ?_⟩⟩
    · rw [h0] at hI
      rw [npIndex, if_pos (show T.one.shape = [] from h0), List.length_eq_zero_iff.1 hI.length]
    · rw [h0] at hI ⊢
      rw [h1, List.length_eq_zero_iff.1 hI.length]
      rfl
  · rw [if_neg h0] at h1
    exact ⟨by rw [h2, h1]; rfl, fun I hI => ⟨I, by rw [h1]; exact hI, by rw [npIndex, if_neg (show T.one.shape ≠ [] from h0)], by rw [h1]⟩⟩

private theorem tileFromArray_eq {T : Tile} {s : Store α} {a : NpArray α} (hT : (s T.handle).size = T.nelems) (ha : a.Fits T.one) :
    tileFromArray T a s = .ok (s.set T.handle ⟨T.nelems, fun k => if k < T.nelems then a.data.data k else none⟩) := by
  have hs := (tile_places ha).1
  unfold tileFromArray
  by_cases h0 : T.shape = []
  · have h1 : a.shape = (if T.shape = [] then [1] else T.shape) := ha.1
    rw [if_pos h0] at h1
    have hn : T.nelems = 1 := by rw [Tile.nelems, h0]; rfl
    rw [if_pos (by rw [Tile.ndim, h0]; rfl), h1, show npCheckScalar [1] = .ok () from rfl, M.bind_ok, memcpyElems, if_pos (by simp [Buf.undef, hT, hn, hs])]
    rw [M.bind_ok, hn, hT, hn]
    rfl
  · have h1 : a.shape = (if T.shape = [] then [1] else T.shape) := ha.1
    rw [if_neg h0] at h1
    rw [if_neg (by simpa [Tile.ndim] using h0), h1, show npCheckTile T T.shape = .ok () from tile_check_ok, M.bind_ok, memcpyElems, if_pos (by simp [Buf.undef, hT, hs]), M.bind_ok, hT]
    rfl

private theorem tileToArray_eq {T : Tile} {s : Store α} {a : NpArray α} (hT : (s T.handle).size = T.nelems) (ha : a.Fits T.one) :
    tileToArray T a s = .ok ⟨a.shape, ⟨T.nelems, fun k => if k < T.nelems then (s T.handle).data k else a.data.data k⟩⟩ := by
  have hs := (tile_places ha).1
  unfold tileToArray
  by_cases h0 : T.shape = []
  · have h1 : a.shape = (if T.shape = [] then [1] else T.shape) := ha.1
    rw [if_pos h0] at h1
    have hn : T.nelems = 1 := by rw [Tile.nelems, h0]; rfl
    rw [if_pos (by rw [Tile.ndim, h0]; rfl), h1, show npCheckScalar [1] = .ok () from rfl, M.bind_ok, memcpyElems, if_pos (by simp [hT, hn, hs])]
    rw [M.bind_ok, hs, hn]
  · have h1 : a.shape = (if T.shape = [] then [1] else T.shape) := ha.1
    rw [if_neg h0] at h1
    rw [if_neg (by simpa [Tile.ndim] using h0), h1, show npCheckTile T T.shape = .ok () from tile_check_ok, M.bind_ok, memcpyElems, if_pos (by simp [hT, hs]), M.bind_ok, hs]

/-- **From array to tile.** `from_array` of a tile puts each element of an array of the same shape to the same index of the tile, and changes no other tile. -/
theorem C46_tile_from_array {T : Tile} {s : Store α} {x : List Nat → α} {a : NpArray α} (hT : (s T.handle).size = T.nelems) (ha : a.Fits T.one)
    (hx : a.Holds fun I => x (npIndex T.one I)) :
    ∃ s', tileFromArray T a s = .ok s' ∧ (∀ I, InBox T.shape I → (s' T.handle).data (lin T.shape I) = some (x I)) ∧ (s' T.handle).size = T.nelems ∧
      ∀ h, h ≠ T.handle → s' h = s h := by
  refine ⟨_, tileFromArray_eq hT ha, fun I hI => ?_, by simp [Store.set], fun h hh => by rw [Store.set, if_neg hh]⟩
  obtain ⟨I', h1, h2, h3⟩ := (tile_places ha).2 I hI
  simp only [Store.set, if_true]
  rw [if_pos (show lin T.shape I < T.nelems from lin_lt hI), ← h3, hx I' h1]
  exact congrArg (fun J => some (x J)) h2

/-- **From tile to array.** `to_array` of a tile puts each element of the tile to the same index of the array, whatever the old contents of the array. (No tile changes: the model returns
no new contents of tiles.) -/
theorem C46_tile_to_array {T : Tile} {s : Store α} {x : List Nat → α} {a : NpArray α} (hT : (s T.handle).size = T.nelems)
    (hx : ∀ I, InBox T.shape I → (s T.handle).data (lin T.shape I) = some (x I)) (ha : a.Fits T.one) :
    ∃ a', tileToArray T a s = .ok a' ∧ a'.Fits T.one ∧ a'.Holds (fun I => x (npIndex T.one I)) := by
  refine ⟨_, tileToArray_eq hT ha, ⟨ha.1, by rw [← ha.2]; exact (tile_places ha).1.symm⟩, fun I hI => ?_⟩
  change InBox a.shape I at hI
  change (if lin a.shape I < T.nelems then (s T.handle).data (lin a.shape I) else _) = _
  have hb : InBox T.shape (npIndex T.one I) ∧ lin a.shape I = lin T.shape (npIndex T.one I) := by
    have h1 : a.shape = (if T.shape = [] then [1] else T.shape) := ha.1
    by_cases h0 : T.shape = []
    · rw [if_pos h0] at h1
      rw [h1] at hI ⊢
      rw [npIndex, if_pos (show T.one.shape = [] from h0), h0]
      obtain ⟨i, rfl⟩ := List.length_eq_one_iff.1 hI.length
      simp only [InBox_cons, InBox_nil, and_true] at hI
      obtain rfl : i = 0 := by omega
      exact ⟨by simp, rfl⟩
    · rw [if_neg h0] at h1
      rw [npIndex, if_neg (show T.one.shape ≠ [] from h0), h1]
      rw [h1] at hI
      exact ⟨hI, rfl⟩
  rw [hb.2, if_pos (show lin T.shape _ < T.nelems from lin_lt hb.1), hx _ hb.1]

/-- **Round trip.** An array written to a tile is read back bit for bit. -/
theorem C46_tile_round_trip {T : Tile} {s : Store α} {a b : NpArray α} (hT : (s T.handle).size = T.nelems) (ha : a.Fits T.one) (hb : b.Fits T.one) :
    ∃ s' b', tileFromArray T a s = .ok s' ∧ tileToArray T b s' = .ok b' ∧ b'.shape = a.shape ∧ b'.data.size = a.data.size ∧ ∀ k, k < a.data.size → b'.data.data k = a.data.data k := by
  refine ⟨_, _, tileFromArray_eq hT ha, tileToArray_eq (by simp [Store.set]) hb, by rw [hb.1, ha.1], (tile_places ha).1.symm, fun k hk => ?_⟩
  rw [(tile_places ha).1] at hk
  simp [Store.set, hk]

/-- **Other shapes are rejected** with an exception. -/
theorem C46_tile_rejects {T : Tile} {s : Store α} {a : NpArray α} (h : a.shape ≠ if T.shape = [] then [1] else T.shape) :
    Throws (tileToArray T a s) ∧ Throws (tileFromArray T a s) := by
  unfold tileToArray tileFromArray
  by_cases h0 : T.shape = []
  · rw [if_pos h0] at h
    rw [if_pos (by simp [Tile.ndim, h0]), if_pos (by simp [Tile.ndim, h0])]
    obtain ⟨m, e⟩ := npCheckScalar_throws h
    exact ⟨⟨m, by rw [e]; rfl⟩, ⟨m, by rw [e]; rfl⟩⟩
  · rw [if_neg h0] at h
    rw [if_neg (by simpa [Tile.ndim] using h0), if_neg (by simpa [Tile.ndim] using h0)]
    obtain ⟨m, e⟩ := tile_check_throws h
    exact ⟨⟨m, by rw [e]; rfl⟩, ⟨m, by rw [e]; rfl⟩⟩

/-- The hypotheses can be met: a `5×3` tile. -/
example : ∃ (s : Store ℝ) (a : NpArray ℝ), (s (⟨0, [5, 3]⟩ : Tile).handle).size = (⟨0, [5, 3]⟩ : Tile).nelems ∧ a.Fits (⟨0, [5, 3]⟩ : Tile).one ∧
    a.Holds (fun I => ((lin [5, 3] (npIndex (⟨0, [5, 3]⟩ : Tile).one I) : Nat) : ℝ)) :=
  ⟨fun _ => ⟨15, fun _ => none⟩, ⟨[5, 3], ⟨15, fun k => some k⟩⟩, rfl, ⟨rfl, rfl⟩, fun _ _ => rfl⟩

end NNTile
