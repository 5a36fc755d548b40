import Verif.Spec.NdArray
import Verif.Lib.Index
import Verif.Lib.Core
/-! Lemmas for `C82`. -/
namespace NNTile
variable {α : Type}

theorem dotStrides_f {shape : List Nat} : ∀ {d : Nat} {strides : List Int} {I : List Nat}, fStrides d shape strides = true → InBox shape I →
    dotStrides strides I = (d * lin shape I : Nat) := by
  induction shape with
  | nil =>
    intro d strides I _ hI
    cases I with
    | nil => cases strides <;> simp [dotStrides]
    | cons => simp [InBox] at hI
  | cons n ns ih =>
    intro d strides I hs hI
    cases strides with
    | nil => simp [fStrides] at hs
    | cons s ss =>
      cases I with
      | nil => simp [InBox] at hI
      | cons i is =>
        simp only [fStrides, Bool.and_eq_true, Bool.or_eq_true, beq_iff_eq] at hs
        have hI' : i < n ∧ InBox ns is := by simpa [InBox] using hI
        rw [dotStrides, ih hs.2 hI'.2, lin_cons]
        rcases hs.1 with h | h
        · have : i = 0 := by omega
          subst this
          subst h
          simp
        · subst h
          push_cast
          ring

theorem NdView.addr_f {a : NdView} (h : a.isF = true) (hp : Pos a.shape) {I : List Nat} (hI : InBox a.shape I) : a.addr I = a.offset + (lin a.shape I : Nat) := by
  have h0 : 0 ∉ a.shape := fun h => absurd (hp 0 h) (lt_irrefl 0)
  have hs : fStrides 1 a.shape a.strides = true := by simpa [NdView.isF, h0] using h
  rw [NdView.addr, dotStrides_f hs hI, Nat.one_mul]

theorem zero_inBox {sh : List Nat} (h : Pos sh) : InBox sh (unlin sh 0) := unlin_inBox h 0

theorem NdView.offset_f {a : NdView} {T : Tensor} {mem : Buf α} (hf : a.Fits T mem) (h : a.isF = true) (hp : Pos a.shape) : 0 ≤ a.offset ∧ a.offset.toNat + a.shape.prod ≤ mem.size := by
  have hpos : 0 < a.shape.prod := hp.prod
  have h1 := hf.within _ (zero_inBox hp)
  rw [NdView.addr_f h hp (zero_inBox hp), lin_unlin hpos] at h1
  have hlast : a.shape.prod - 1 < a.shape.prod := by omega
  have h2 := hf.within _ (unlin_inBox hp (a.shape.prod - 1))
  rw [NdView.addr_f h hp (unlin_inBox hp _), lin_unlin hlast] at h2
  omega

theorem ensureF_same {conv : NpType → α → α} {ty : NpType} {force : Bool} {a : NdView} {mem : Buf α} (h1 : a.type = ty) (h2 : a.isF = true) :
    ensureF conv ty force a mem = .ok (⟨a.shape, ⟨a.shape.prod, fun k => mem.data (a.offset.toNat + k)⟩⟩, true) := by
  unfold ensureF
  rw [if_pos ⟨h1, h2⟩]

theorem ensureF_copy {conv : NpType → α → α} {ty : NpType} {force : Bool} {a : NdView} {mem : Buf α} (h1 : ¬ (a.type = ty ∧ a.isF = true)) (h2 : force = true ∨ a.type.safe ty = true) :
    ensureF conv ty force a mem =
      .ok (⟨a.shape, ⟨a.shape.prod, fun k => (mem.data (a.addr (unlin a.shape k)).toNat).map fun v => if a.type = ty then v else conv ty v⟩⟩, false) := by
  unfold ensureF
  rw [if_neg h1, if_pos h2]

theorem ensureF_reject {conv : NpType → α → α} {ty : NpType} {a : NdView} {mem : Buf α} (h1 : a.type ≠ ty) (h2 : a.type.safe ty = false) :
    ensureF conv ty false a mem = .error (.throw "TypeError") := by
  unfold ensureF
  rw [if_neg (fun h => h1 h.1), if_neg (by simp [h2])]

/-- The array seen by `from_array`. -/
theorem ensureF_force {conv : NpType → α → α} {ty : NpType} {a : NdView} {mem : Buf α} {x : List Nat → α} (hp : Pos a.shape) (hx : a.Shows mem x)
    (h0 : a.isF = true → 0 ≤ a.offset) :
    ∃ r, ensureF conv ty true a mem = .ok r ∧ r.1.shape = a.shape ∧ r.1.data.size = a.shape.prod ∧ r.1.Holds (fun I => if a.type = ty then x I else conv ty (x I)) := by
  by_cases h : a.type = ty ∧ a.isF = true
  · refine ⟨_, ensureF_same h.1 h.2, rfl, rfl, fun I hI => ?_⟩
    have := hx I hI
    rw [NdView.addr_f h.2 hp hI] at this
    have e : (a.offset + (lin a.shape I : Nat)).toNat = a.offset.toNat + lin a.shape I := by
      have := h0 h.2
      omega
    rw [e] at this
    simp only [h.1, if_true]
    exact this
  · refine ⟨_, ensureF_copy h (.inl rfl), rfl, rfl, fun I hI => ?_⟩
    change ((mem.data (a.addr (unlin a.shape (lin a.shape I))).toNat).map fun v => if a.type = ty then v else conv ty v) = _
    rw [unlin_lin hI, hx I hI]
    rfl

end NNTile
