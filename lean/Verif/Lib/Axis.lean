import Verif.Lib.Task
/-! Lemmas about taking, dropping and erasing dimensions. -/
namespace NNTile

theorem getD_eq_getElem {S : List Nat} {a : Nat} (h : a < S.length) : S.getD a 0 = S[a] := by simp [h]

/-! ### take and drop -/
theorem gridOf_take (a : Nat) (S B : List Nat) : gridOf (S.take a) (B.take a) = (gridOf S B).take a := by
  induction S generalizing a B with
  | nil => simp
  | cons s S ih => cases B with
    | nil => cases a <;> simp
    | cons b B => cases a with
      | zero => simp
      | succ a => simp [ih]

theorem gridOf_drop (a : Nat) (S B : List Nat) : gridOf (S.drop a) (B.drop a) = (gridOf S B).drop a := by
  induction S generalizing a B with
  | nil => simp
  | cons s S ih => cases B with
    | nil => cases a with
      | zero => simp
      | succ a => cases h : List.drop a S <;> simp [h]
    | cons b B => cases a with
      | zero => simp
      | succ a => simp [ih]

theorem tileShape_take (a : Nat) (S B T : List Nat) : tileShape (S.take a) (B.take a) (T.take a) = (tileShape S B T).take a := by
  induction S generalizing a B T with
  | nil => simp
  | cons s S ih => cases B with
    | nil => cases a <;> simp
    | cons b B => cases T with
      | nil => cases a <;> simp
      | cons t T => cases a with
        | zero => simp
        | succ a => simp [ih]

theorem tileShape_drop (a : Nat) {S B T : List Nat} (h : B.length = S.length) (h' : T.length = S.length) :
    tileShape (S.drop a) (B.drop a) (T.drop a) = (tileShape S B T).drop a := by
  induction S generalizing a B T with
  | nil => simp
  | cons s S ih => cases B with
    | nil => simp at h
    | cons b B => cases T with
      | nil => simp at h'
      | cons t T => cases a with
        | zero => simp
        | succ a => simp [ih a (by simpa using h) (by simpa using h')]

theorem globIdx_take (a : Nat) (B T L : List Nat) : globIdx (B.take a) (T.take a) (L.take a) = (globIdx B T L).take a := by
  induction B generalizing a T L with
  | nil => simp
  | cons s S ih => cases T with
    | nil => cases a <;> simp
    | cons b B => cases L with
      | nil => cases a <;> simp
      | cons t T => cases a with
        | zero => simp
        | succ a => simp [ih]

theorem globIdx_drop (a : Nat) {B T L : List Nat} (h : T.length = B.length) (h' : L.length = B.length) :
    globIdx (B.drop a) (T.drop a) (L.drop a) = (globIdx B T L).drop a := by
  induction B generalizing a T L with
  | nil => simp
  | cons s S ih => cases T with
    | nil => simp at h
    | cons b B => cases L with
      | nil => simp at h'
      | cons t T => cases a with
        | zero => simp
        | succ a => simp [ih a (by simpa using h) (by simpa using h')]

theorem InBox.take {S I : List Nat} (h : InBox S I) (a : Nat) : InBox (S.take a) (I.take a) := by
  induction S generalizing a I with
  | nil => cases I <;> simp_all
  | cons s S ih => cases I with
    | nil => simp at h
    | cons i I => cases a with
      | zero => simp
      | succ a => simp at h; simp [ih h.2, h.1]

theorem InBox.drop {S I : List Nat} (h : InBox S I) (a : Nat) : InBox (S.drop a) (I.drop a) := by
  induction S generalizing a I with
  | nil => cases I <;> simp_all
  | cons s S ih => cases I with
    | nil => simp at h
    | cons i I => cases a with
      | zero => simpa using h
      | succ a => simp at h; simp [ih h.2]

theorem InBox.getD {S I : List Nat} (h : InBox S I) {a : Nat} (ha : a < S.length) : I.getD a 0 < S.getD a 0 := by
  induction S generalizing a I with
  | nil => simp at ha
  | cons s S ih => cases I with
    | nil => simp at h
    | cons i I => cases a with
      | zero => simp at h; simpa using h.1
      | succ a => simp at h; simpa using ih h.2 (by simpa using ha)

theorem Pos.take {S : List Nat} (h : Pos S) (a : Nat) : Pos (S.take a) := fun x hx => h x (List.mem_of_mem_take hx)
theorem Pos.drop {S : List Nat} (h : Pos S) (a : Nat) : Pos (S.drop a) := fun x hx => h x (List.mem_of_mem_drop hx)
theorem Pos.eraseIdx {S : List Nat} (h : Pos S) (a : Nat) : Pos (S.eraseIdx a) := fun x hx => h x (List.mem_of_mem_eraseIdx hx)
theorem Pos.getD {S : List Nat} (h : Pos S) {a : Nat} (ha : a < S.length) : 0 < S.getD a 0 := by
  rw [getD_eq_getElem ha]; exact h _ (List.getElem_mem ha)

theorem lin_take_drop (a : Nat) {S I : List Nat} (h : I.length = S.length) :
    lin S I = lin (S.take a) (I.take a) + (S.take a).prod * lin (S.drop a) (I.drop a) := by
  conv_lhs => rw [← List.take_append_drop a S, ← List.take_append_drop a I]
  exact lin_append (by simp [h])

theorem prod_take_drop (a : Nat) (S : List Nat) : (S.take a).prod * (S.drop a).prod = S.prod := by
  rw [← List.prod_append, List.take_append_drop]

theorem drop_eq_getD_cons {S : List Nat} {a : Nat} (h : a < S.length) : S.drop a = S.getD a 0 :: S.drop (a + 1) := by
  rw [List.drop_eq_getElem_cons h, getD_eq_getElem h]

/-- Position of an index in the three-dimensional view (before the axis, the axis, after the axis). -/
theorem lin_axis {S I : List Nat} {a : Nat} (ha : a < S.length) (h : I.length = S.length) :
    lin S I = lin (S.take a) (I.take a) + (S.take a).prod * (I.getD a 0 + S.getD a 0 * lin (S.drop (a+1)) (I.drop (a+1))) := by
  rw [lin_take_drop a h, drop_eq_getD_cons ha, drop_eq_getD_cons (S := I) (a := a) (h ▸ ha), lin_cons]

theorem lin_erase {S I : List Nat} {a : Nat} (h : I.length = S.length) :
    lin (S.eraseIdx a) (I.eraseIdx a) = lin (S.take a) (I.take a) + (S.take a).prod * lin (S.drop (a+1)) (I.drop (a+1)) := by
  rw [List.eraseIdx_eq_take_drop_succ, List.eraseIdx_eq_take_drop_succ, lin_append (by simp [h])]

theorem prod_axis {S : List Nat} {a : Nat} (ha : a < S.length) :
    S.prod = (S.take a).prod * (S.getD a 0 * (S.drop (a+1)).prod) := by
  rw [← prod_take_drop a S, drop_eq_getD_cons ha, List.prod_cons]

theorem prod_erase (S : List Nat) (a : Nat) : (S.eraseIdx a).prod = (S.take a).prod * (S.drop (a+1)).prod := by
  rw [List.eraseIdx_eq_take_drop_succ, List.prod_append]

/-! ### erasing a dimension -/
theorem gridOf_erase (a : Nat) {S B : List Nat} (h : B.length = S.length) : gridOf (S.eraseIdx a) (B.eraseIdx a) = (gridOf S B).eraseIdx a := by
  simp only [List.eraseIdx_eq_take_drop_succ, ← gridOf_take, ← gridOf_drop]
  exact gridOf_append (by simp [h])

theorem tileShape_erase (a : Nat) {S B T : List Nat} (h : B.length = S.length) (h' : T.length = S.length) :
    tileShape (S.eraseIdx a) (B.eraseIdx a) (T.eraseIdx a) = (tileShape S B T).eraseIdx a := by
  simp only [List.eraseIdx_eq_take_drop_succ, ← tileShape_take, ← tileShape_drop (a+1) h h']
  exact tileShape_append (by simp [h]) (by simp [h'])

theorem globIdx_erase (a : Nat) {B T L : List Nat} (h : T.length = B.length) (h' : L.length = B.length) :
    globIdx (B.eraseIdx a) (T.eraseIdx a) (L.eraseIdx a) = (globIdx B T L).eraseIdx a := by
  simp only [List.eraseIdx_eq_take_drop_succ, ← globIdx_take, ← globIdx_drop (a+1) h h']
  exact globIdx_append (by simp [h]) (by simp [h'])

theorem InBox.erase {S I : List Nat} (h : InBox S I) (a : Nat) : InBox (S.eraseIdx a) (I.eraseIdx a) := by
  simp only [List.eraseIdx_eq_take_drop_succ]
  exact (h.take a).append (h.drop (a+1))

/-! ### inserting an index -/
theorem InBox.insert {S I : List Nat} {a j : Nat} (h : InBox (S.eraseIdx a) I) (ha : a < S.length) (hj : j < S.getD a 0) :
    InBox S (I.insertIdx a j) := by
  induction S generalizing a I with
  | nil => simp at ha
  | cons s S ih => cases a with
    | zero =>
      simp only [List.eraseIdx_cons_zero] at h
      simp only [List.insertIdx_zero, InBox_cons]
      exact ⟨by simpa using hj, h⟩
    | succ a =>
      cases I with
      | nil => simp at h
      | cons i I =>
        simp only [List.eraseIdx_cons_succ, InBox_cons] at h
        simp only [List.insertIdx_succ_cons, InBox_cons]
        exact ⟨h.1, ih h.2 (by simpa using ha) (by simpa using hj)⟩

theorem insert_erase {I : List Nat} {a : Nat} (ha : a < I.length) : (I.eraseIdx a).insertIdx a (I.getD a 0) = I := by
  rw [getD_eq_getElem ha]
  exact List.insertIdx_eraseIdx_getElem ha

theorem erase_insert {I : List Nat} {a j : Nat} : (I.insertIdx a j).eraseIdx a = I := List.eraseIdx_insertIdx_self ..

theorem getD_insert {I : List Nat} {a j : Nat} (ha : a ≤ I.length) : (I.insertIdx a j).getD a 0 = j := by
  rw [List.getD_eq_getElem?_getD, List.getElem?_insertIdx_self, if_pos ha]
  rfl

end NNTile
