import Verif.Lib.Elementwise
/-! A store with given contents, for examples showing that hypotheses can be met. -/
namespace NNTile
variable {α : Type}

/-- The store in which each listed tensor holds the listed values. -/
def storeOf : List (Tensor × (List Nat → α)) → Store α
  | [] => fun _ => Buf.undef 0
  | (T, x) :: l => fun h =>
    if h.1 = T.id then ⟨(T.tshapeL h.2).prod, fun k => some (x (globIdx T.basetile (T.tindex h.2) (unlin (T.tshapeL h.2) k)))⟩
    else storeOf l h

theorem storeOf_spec (l : List (Tensor × (List Nat → α))) (hwf : ∀ p ∈ l, p.1.WF) (hid : (l.map (fun p => p.1.id)).Nodup) :
    ∀ p ∈ l, p.1.Ready (storeOf l) ∧ p.1.Holds (storeOf l) p.2 := by
  induction l with
  | nil => simp
  | cons q l ih =>
    obtain ⟨T, x⟩ := q
    simp only [List.map_cons, List.nodup_cons] at hid
    have hT : T.WF := hwf (T, x) (by simp)
    intro p hp
    rcases List.mem_cons.1 hp with rfl | hp
    · refine ⟨⟨hT, fun i hi => by simp [storeOf]⟩, ?_⟩
      intro I hI
      have h1 := hT.tileIdx_inBox hI
      have h2 := hT.locIdx_inBox hI
      simp only [Tensor.get, Tensor.hOf, storeOf, if_true, Tensor.oOf, Tensor.tshapeL_lin h1, Tensor.tindex_lin h1, unlin_lin h2]
      rw [globIdx_tile_loc (by rw [hI.length, hT.2.2])]
    · obtain ⟨h1, h2⟩ := ih (fun p hp => hwf p (by simp [hp])) hid.2 p hp
      have hne : p.1.id ≠ T.id := fun h => hid.1 (by rw [← h]; exact List.mem_map_of_mem hp)
      refine ⟨⟨h1.1, fun i hi => ?_⟩, fun I hI => ?_⟩
      · simp only [storeOf, hne, if_false]; exact h1.2 i hi
      · have := h2 I hI
        simp only [Tensor.get, Tensor.hOf, storeOf, hne, if_false] at this ⊢
        exact this

theorem exists_store2 {A B : Tensor} (x y : List Nat → α) (hA : A.WF) (hB : B.WF) (h : A.id ≠ B.id) :
    ∃ s : Store α, (A.Ready s ∧ A.Holds s x) ∧ B.Ready s ∧ B.Holds s y := by
  have h := storeOf_spec [(A, x), (B, y)] (by simp [hA, hB]) (by simp [h])
  exact ⟨_, h (A, x) (by simp), h (B, y) (by simp)⟩

theorem exists_store3 {A B C : Tensor} (x y z : List Nat → α) (hA : A.WF) (hB : B.WF) (hC : C.WF) (h1 : A.id ≠ B.id) (h2 : A.id ≠ C.id)
    (h3 : B.id ≠ C.id) : ∃ s : Store α, (A.Ready s ∧ A.Holds s x) ∧ (B.Ready s ∧ B.Holds s y) ∧ C.Ready s ∧ C.Holds s z := by
  have h := storeOf_spec [(A, x), (B, y), (C, z)] (by simp [hA, hB, hC]) (by simp [h1, h2, h3])
  exact ⟨_, h (A, x) (by simp), h (B, y) (by simp), h (C, z) (by simp)⟩

end NNTile
