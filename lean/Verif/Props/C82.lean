import Verif.Lib.NdArray
import Verif.Props.C46
import Verif.Props.C46Tile
/-!
# C82: arrays of any memory layout and element type

`C46` is about arrays in Fortran order with the element type of the tensor. Here the arguments of `from_array` and `to_array` are numpy arrays of any layout: in C order, transposed, slices, reversed,
with elements of any type.
-/
namespace NNTile
variable {α : Type}

private theorem pos_shape {a : NdView} {T : Tensor} (hT : T.WF) (h : a.shape = if T.shape = [] then [1] else T.shape) : Pos a.shape := by
  rw [h]
  split
  · intro x hx
    simp only [List.mem_cons, List.not_mem_nil, or_false] at hx
    omega
  · exact hT.1

/-- `from_array` takes an array of any layout and type: afterwards the tensor holds its elements, converted to the type of the tensor. -/
theorem C82_from_array {conv : NpType → α → α} {ty : NpType} {T : Tensor} {s : Store α} {a : NdView} {mem : Buf α} {x : List Nat → α} {tmpId : Nat} (hT : T.Ready s) (hid : tmpId ≠ T.id)
    (ha : a.Fits T mem) (hx : a.Shows mem fun I => x (npIndex T I)) :
    ∃ s', pyFromArray conv ty T tmpId a mem s = .ok s' ∧ T.Holds s' (fun I => if a.type = ty then x I else conv ty (x I)) ∧ T.Ready s' ∧ OnlyChanged [T.id, tmpId] s s' := by
  have hp := pos_shape hT.1 ha.shape
  obtain ⟨r, e, h1, h2, h3⟩ := ensureF_force (conv := conv) (ty := ty) hp hx fun h => (NdView.offset_f ha h hp).1
  obtain ⟨s', e', h4, h5, h6⟩ := C46_from_array (x := fun I => if a.type = ty then x I else conv ty (x I)) hT hid (a := r.1) ⟨h1.trans ha.shape, by rw [h2, h1]⟩ h3
  exact ⟨s', by rw [pyFromArray, e, M.bind_ok, e'], h4, h5, h6⟩

/-- `to_array` fills an array in Fortran order with the element type of the tensor, and does not touch other parts of its memory. -/
theorem C82_to_array_partial {conv : NpType → α → α} {ty : NpType} {T : Tensor} {s : Store α} {x : List Nat → α} {a : NdView} {mem : Buf α} {tmpId : Nat} (hT : T.Ready s) (hx : T.Holds s x)
    (hid : tmpId ≠ T.id) (ha : a.Fits T mem) (ht : a.type = ty) (hF : a.isF = true) (hw : a.writeable = true) :
    ∃ mem' s', pyToArray conv ty T tmpId a mem s = .ok (mem', s') ∧ a.Shows mem' (fun I => x (npIndex T I)) ∧ mem'.size = mem.size ∧
      (∀ j : Nat, (∀ I, InBox a.shape I → a.addr I ≠ j) → mem'.data j = mem.data j) ∧ OnlyChanged [tmpId] s s' := by
  have hp := pos_shape hT.1 ha.shape
  obtain ⟨o1, o2⟩ := NdView.offset_f ha hF hp
  obtain ⟨a', s', e, h1, h2, h3, -⟩ := C46_to_array (a := ⟨a.shape, ⟨a.shape.prod, fun k => mem.data (a.offset.toNat + k)⟩⟩) (tmpId := tmpId) hT hx hid ⟨ha.shape, rfl⟩
  refine ⟨⟨mem.size, fun j => if a.offset.toNat ≤ j ∧ j < a.offset.toNat + a.shape.prod then a'.data.data (j - a.offset.toNat) else mem.data j⟩, s', ?_, ?_, ?_, ?_, h3⟩
  · rw [pyToArray, ensureF_same ht hF, M.bind_ok, e, M.bind_ok, throwIf_neg (by simp [hw]), M.bind_ok]
    rfl
  · intro I hI
    have hl := lin_lt hI
    have e1 : (a.addr I).toNat = a.offset.toNat + lin a.shape I := by
      rw [NdView.addr_f hF hp hI]
      omega
    have hs : a'.shape = a.shape := h1.1.trans ha.shape.symm
    simp only [e1]
    rw [if_pos ⟨by omega, by omega⟩, Nat.add_sub_cancel_left]
    have := h2 I (by rw [hs]; exact hI)
    rwa [hs] at this
  · rfl
  · intro j hj
    refine if_neg fun h => hj (unlin a.shape (j - a.offset.toNat)) (unlin_inBox hp _) ?_
    rw [NdView.addr_f hF hp (unlin_inBox hp _), lin_unlin (by omega)]
    omega

/-- **Refuted: other arrays.** If the array is not in Fortran order, or has another element type from which the conversion is safe, `to_array` succeeds but does not change the array. -/
theorem C82_to_array_refuted {conv : NpType → α → α} {ty : NpType} {T : Tensor} {s : Store α} {x : List Nat → α} {a : NdView} {mem : Buf α} {tmpId : Nat} (hT : T.Ready s) (hx : T.Holds s x)
    (hid : tmpId ≠ T.id) (hs : a.shape = if T.shape = [] then [1] else T.shape) (ht : a.type.safe ty = true) (hF : a.isF = false ∨ a.type ≠ ty) :
    ∃ s', pyToArray conv ty T tmpId a mem s = .ok (mem, s') := by
  have hF' : ¬ (a.type = ty ∧ a.isF = true) := by
    rintro ⟨h1, h2⟩
    rcases hF with h | h
    · rw [h2] at h; cases h
    · exact h h1
  obtain ⟨a', s', e, -⟩ := C46_to_array (a := ⟨a.shape, ⟨a.shape.prod, fun k => (mem.data (a.addr (unlin a.shape k)).toNat).map fun v => if a.type = ty then v else conv ty v⟩⟩)
    (tmpId := tmpId) hT hx hid ⟨hs, rfl⟩
  refine ⟨s', ?_⟩
  rw [pyToArray, ensureF_copy hF' (.inr ht), M.bind_ok, e, M.bind_ok, throwIf_neg (by simp), M.bind_ok]
  rfl

/-- An array in C order with at least two dimensions of more than one element is not in Fortran order. -/
theorem C82_c_order {a : NdView} (hp : Pos a.shape) (hc : a.strides = cStrides a.shape) {l r : List Nat} {n : Nat} (hs : a.shape = l ++ n :: r) (hl : l.prod = 1) (hn : 1 < n)
    (hr : 1 < r.prod) : a.isF = false := by
  have h0 : 0 ∉ a.shape := fun h => absurd (hp 0 h) (lt_irrefl 0)
  have key : ∀ (l : List Nat), l.prod = 1 → fStrides 1 (l ++ n :: r) (cStrides (l ++ n :: r)) = false := by
    intro l
    induction l with
    | nil =>
      intro _
      have h1 : (n == 1) = false := by simp; omega
      have h2 : ((r.prod : Int) == (1 : Nat)) = false := by
        rw [beq_eq_false_iff_ne]
        omega
      simp only [List.nil_append, cStrides, fStrides, h1, h2, Bool.or_self, Bool.false_and]
    | cons m l ih =>
      intro h
      have hm : m = 1 ∧ l.prod = 1 := by
        rw [List.prod_cons] at h
        exact ⟨Nat.eq_one_of_mul_eq_one_right h, Nat.eq_one_of_mul_eq_one_left h⟩
      rw [hm.1]
      simp only [List.cons_append, cStrides, fStrides, Nat.mul_one, beq_self_eq_true, Bool.true_or, Bool.true_and]
      exact ih hm.2
  rw [NdView.isF, decide_eq_false h0, Bool.false_or, hc, hs]
  exact key l hl

/-- Wrong arguments of `to_array` are refused: element types without safe conversion, other shapes, arrays in Fortran order that are not writeable. -/
theorem C82_rejects {conv : NpType → α → α} {ty : NpType} {T : Tensor} {s : Store α} {a : NdView} {mem : Buf α} {tmpId : Nat} :
    (a.type.safe ty = false → Throws (pyToArray conv ty T tmpId a mem s)) ∧
    (a.shape ≠ (if T.shape = [] then [1] else T.shape) → Throws (pyToArray conv ty T tmpId a mem s) ∧ Throws (pyFromArray conv ty T tmpId a mem s)) ∧
    (∀ x, T.Ready s → T.Holds s x → tmpId ≠ T.id → a.Fits T mem → a.type = ty → a.isF = true → a.writeable = false → Throws (pyToArray conv ty T tmpId a mem s)) := by
  refine ⟨fun h => ?_, fun h => ⟨?_, ?_⟩, fun x hT hx hid ha ht hF hw => ?_⟩
  · have hne : a.type ≠ ty := by
      rintro rfl
      cases e : a.type <;> rw [e] at h <;> cases h
    rw [pyToArray, ensureF_reject hne h]
    exact ⟨_, rfl⟩
  · unfold pyToArray ensureF
    split
    · rw [M.bind_ok]
      exact (C46_rejects h).1.bind
    · split
      · rw [M.bind_ok]
        exact (C46_rejects h).1.bind
      · exact ⟨_, rfl⟩
  · unfold pyFromArray ensureF
    split
    · rw [M.bind_ok]
      exact (C46_rejects h).2
    · rw [if_pos (by simp), M.bind_ok]
      exact (C46_rejects h).2
  · obtain ⟨a', s', e, -⟩ := C46_to_array (a := ⟨a.shape, ⟨a.shape.prod, fun k => mem.data (a.offset.toNat + k)⟩⟩) (tmpId := tmpId) hT hx hid ⟨ha.shape, rfl⟩
    rw [pyToArray, ensureF_same ht hF, M.bind_ok, e, M.bind_ok, throwIf_pos ⟨rfl, hw⟩]
    exact ⟨_, rfl⟩

/-- Which conversions `to_array` takes as safe. -/
theorem C82_safe_types (a b : NpType) : a.safe b = true ↔ (a, b) ∈ safeCasts := by
  cases a <;> cases b <;> simp [NpType.safe, safeCasts]

/-! ## Tiles -/

/-- `from_array` of a tile. -/
theorem C82_tile_from_array {conv : NpType → α → α} {ty : NpType} {T : Tile} {s : Store α} {a : NdView} {mem : Buf α} {x : List Nat → α} (hT : (s T.handle).size = T.nelems)
    (hp : Pos T.shape) (ha : a.Fits T.one mem) (hx : a.Shows mem fun I => x (npIndex T.one I)) :
    ∃ s', pyTileFromArray conv ty T a mem s = .ok s' ∧
      (∀ I, InBox T.shape I → (s' T.handle).data (lin T.shape I) = some (if a.type = ty then x I else conv ty (x I))) ∧ ∀ h, h ≠ T.handle → s' h = s h := by
  have hp := pos_shape (T := T.one) ⟨hp, hp, rfl⟩ ha.shape
  obtain ⟨r, e, h1, h2, h3⟩ := ensureF_force (conv := conv) (ty := ty) hp hx fun h => (NdView.offset_f ha h hp).1
  obtain ⟨s', e', h4, -, h6⟩ := C46_tile_from_array (x := fun I => if a.type = ty then x I else conv ty (x I)) hT (a := r.1) ⟨h1.trans ha.shape, by rw [h2, h1]⟩ h3
  exact ⟨s', by rw [pyTileFromArray, e, M.bind_ok, e'], h4, h6⟩

/-- `to_array` of a tile with an array in Fortran order with the element type of the tile. -/
theorem C82_tile_to_array_partial {conv : NpType → α → α} {ty : NpType} {T : Tile} {s : Store α} {x : List Nat → α} {a : NdView} {mem : Buf α} (hT : (s T.handle).size = T.nelems)
    (hp : Pos T.shape) (hx : ∀ I, InBox T.shape I → (s T.handle).data (lin T.shape I) = some (x I)) (ha : a.Fits T.one mem) (ht : a.type = ty) (hF : a.isF = true)
    (hw : a.writeable = true) :
    ∃ mem', pyTileToArray conv ty T a mem s = .ok mem' ∧ a.Shows mem' (fun I => x (npIndex T.one I)) ∧ mem'.size = mem.size ∧
      ∀ j : Nat, (∀ I, InBox a.shape I → a.addr I ≠ j) → mem'.data j = mem.data j := by
  have hp := pos_shape (T := T.one) ⟨hp, hp, rfl⟩ ha.shape
  obtain ⟨o1, o2⟩ := NdView.offset_f ha hF hp
  obtain ⟨a', e, h1, h2⟩ := C46_tile_to_array (a := ⟨a.shape, ⟨a.shape.prod, fun k => mem.data (a.offset.toNat + k)⟩⟩) hT hx ⟨ha.shape, rfl⟩
  refine ⟨⟨mem.size, fun j => if a.offset.toNat ≤ j ∧ j < a.offset.toNat + a.shape.prod then a'.data.data (j - a.offset.toNat) else mem.data j⟩, ?_, ?_, ?_, ?_⟩
  · rw [pyTileToArray, ensureF_same ht hF, M.bind_ok, e, M.bind_ok, throwIf_neg (by simp [hw]), M.bind_ok]
    rfl
  · intro I hI
    have hl := lin_lt hI
    have e1 : (a.addr I).toNat = a.offset.toNat + lin a.shape I := by
      rw [NdView.addr_f hF hp hI]
      omega
    have hs : a'.shape = a.shape := h1.1.trans ha.shape.symm
    simp only [e1]
    rw [if_pos ⟨by omega, by omega⟩, Nat.add_sub_cancel_left]
    have := h2 I (by rw [hs]; exact hI)
    rwa [hs] at this
  · rfl
  · intro j hj
    refine if_neg fun h => hj (unlin a.shape (j - a.offset.toNat)) (unlin_inBox hp _) ?_
    rw [NdView.addr_f hF hp (unlin_inBox hp _), lin_unlin (by omega)]
    omega

/-- **Refuted**, as for tensors. -/
theorem C82_tile_to_array_refuted {conv : NpType → α → α} {ty : NpType} {T : Tile} {s : Store α} {x : List Nat → α} {a : NdView} {mem : Buf α} (hT : (s T.handle).size = T.nelems)
    (hx : ∀ I, InBox T.shape I → (s T.handle).data (lin T.shape I) = some (x I)) (hs : a.shape = if T.shape = [] then [1] else T.shape) (ht : a.type.safe ty = true)
    (hF : a.isF = false ∨ a.type ≠ ty) : pyTileToArray conv ty T a mem s = .ok mem := by
  have hF' : ¬ (a.type = ty ∧ a.isF = true) := by
    rintro ⟨h1, h2⟩
    rcases hF with h | h
    · rw [h2] at h; cases h
    · exact h h1
  obtain ⟨a', e, -⟩ := C46_tile_to_array (a := ⟨a.shape, ⟨a.shape.prod, fun k => (mem.data (a.addr (unlin a.shape k)).toNat).map fun v => if a.type = ty then v else conv ty v⟩⟩)
    hT hx ⟨hs, rfl⟩
  rw [pyTileToArray, ensureF_copy hF' (.inr ht), M.bind_ok, e, M.bind_ok, throwIf_neg (by simp), M.bind_ok]
  rfl

/-! ## Examples -/

/-- `numpy.zeros((2, 3), dtype=numpy.float32)`: in C order. -/
def cOrderExample : NdView := ⟨.float32, [2, 3], 0, [3, 1], true⟩

/-- The same in Fortran order, and an array of another type whose elements are every second one of a memory, backwards. -/
def fOrderExample : NdView := ⟨.float32, [2, 3], 0, [1, 2], true⟩
def reversedExample : NdView := ⟨.float64, [2, 3], 11, [-2, -4], false⟩

/-- **Refuted: a default numpy array.** A tensor of ones of the shape `2×3`, a new array of zeros in C order: `to_array` succeeds, and the array is still zero. -/
theorem C82_zeros_refuted (conv : NpType → ℝ → ℝ) : ∃ s s' : Store ℝ, (⟨0, [2, 3], [2, 2]⟩ : Tensor).Holds s (fun _ => 1) ∧
    pyToArray conv .float32 ⟨0, [2, 3], [2, 2]⟩ 1 cOrderExample ⟨6, fun _ => some 0⟩ s = .ok (⟨6, fun _ => some 0⟩, s') ∧ cOrderExample.Shows (⟨6, fun _ => some 0⟩ : Buf ℝ) (fun _ => 0) := by
  have h := storeOf_spec [((⟨0, [2, 3], [2, 2]⟩ : Tensor), fun _ : List Nat => (1 : ℝ))] (by simp [Tensor.WF]) (by simp)
  simp only [List.forall_mem_cons, List.not_mem_nil, IsEmpty.forall_iff, implies_true, and_true] at h
  obtain ⟨s', e⟩ := C82_to_array_refuted (conv := conv) (ty := .float32) (a := cOrderExample) (mem := ⟨6, fun _ => some 0⟩) (tmpId := 1) h.1 h.2 (by simp) rfl rfl
    (.inl (C82_c_order (l := []) (n := 2) (r := [3]) (by decide) rfl rfl rfl (by decide) (by decide)))
  exact ⟨_, s', h.2, e, fun _ _ => rfl⟩

/-- The hypotheses are met: all elements of the three arrays lie in their memories. -/
example : fOrderExample.isF = true ∧ cOrderExample.isF = false ∧ reversedExample.isF = false ∧ NpType.safe .float64 .float32 = false ∧
    fOrderExample.Fits ⟨0, [2, 3], [2, 2]⟩ (⟨6, fun _ => some 0⟩ : Buf ℝ) ∧ cOrderExample.Fits ⟨0, [2, 3], [2, 2]⟩ (⟨6, fun _ => some 0⟩ : Buf ℝ) ∧
    reversedExample.Fits ⟨0, [2, 3], [2, 2]⟩ (⟨12, fun _ => some 0⟩ : Buf ℝ) := by
  have box : ∀ I, InBox [2, 3] I → ∃ i j, I = [i, j] ∧ i < 2 ∧ j < 3 := by
    intro I hI
    match I, hI with
    | [], h => simp [InBox] at h
    | [_], h => simp [InBox] at h
    | [i, j], h => exact ⟨i, j, rfl, by simpa [InBox] using h⟩
    | _ :: _ :: _ :: _, h => simp [InBox] at h
  refine ⟨by decide, by decide, by decide, rfl, ⟨rfl, rfl, fun I hI => ?_⟩, ⟨rfl, rfl, fun I hI => ?_⟩, ⟨rfl, rfl, fun I hI => ?_⟩⟩
  all_goals
    obtain ⟨i, j, rfl, hi, hj⟩ := box I hI
    simp only [NdView.addr, fOrderExample, cOrderExample, reversedExample, dotStrides]
    omega

end NNTile
