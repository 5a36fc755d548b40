import Verif.Spec.Index
import Mathlib.Tactic.Ring
import Mathlib.Tactic.Linarith
/-! Helper lemmas about multi-indices. -/
namespace NNTile

@[simp] theorem InBox_nil : InBox [] [] = True := rfl
@[simp] theorem InBox_cons {s i : Nat} {ss is : List Nat} : InBox (s :: ss) (i :: is) = (i < s ∧ InBox ss is) := rfl
@[simp] theorem InBox_nil_cons {i : Nat} {is : List Nat} : InBox [] (i :: is) = False := rfl
@[simp] theorem InBox_cons_nil {s : Nat} {ss : List Nat} : InBox (s :: ss) [] = False := rfl
@[simp] theorem lin_cons {s i : Nat} {ss is : List Nat} : lin (s :: ss) (i :: is) = i + s * lin ss is := rfl
@[simp] theorem lin_nil {is : List Nat} : lin [] is = 0 := by cases is <;> rfl
@[simp] theorem lin_nil_right {s : List Nat} : lin s [] = 0 := by cases s <;> rfl
@[simp] theorem unlin_nil (k : Nat) : unlin [] k = [] := rfl
@[simp] theorem unlin_cons (s k : Nat) (ss : List Nat) : unlin (s :: ss) k = k % s :: unlin ss (k / s) := rfl
@[simp] theorem Pos_nil : Pos [] := by intro x h; simp at h
@[simp] theorem Pos_cons {s : Nat} {ss : List Nat} : Pos (s :: ss) ↔ 0 < s ∧ Pos ss := by simp [Pos]
@[simp] theorem Pos_append {s t : List Nat} : Pos (s ++ t) ↔ Pos s ∧ Pos t := by
  simp only [Pos, List.mem_append]
  constructor
  · intro h; exact ⟨fun x hx => h x (Or.inl hx), fun x hx => h x (Or.inr hx)⟩
  · rintro ⟨h1, h2⟩ x (h | h); exacts [h1 x h, h2 x h]

theorem Pos.prod {s : List Nat} (h : Pos s) : 0 < s.prod := by
  induction s with
  | nil => simp
  | cons a s ih => simp at h; simp only [List.prod_cons]; exact Nat.mul_pos h.1 (ih h.2)

theorem InBox.length {s i : List Nat} (h : InBox s i) : i.length = s.length := by
  induction s generalizing i with
  | nil => cases i <;> simp_all
  | cons a s ih => cases i with
    | nil => simp at h
    | cons b i => simp at h; simp [ih h.2]

theorem InBox.pos {s i : List Nat} (h : InBox s i) : Pos s := by
  induction s generalizing i with
  | nil => simp
  | cons a s ih => cases i with
    | nil => simp at h
    | cons b i => simp at h; simp; exact ⟨by omega, ih h.2⟩

theorem InBox_iff {s i : List Nat} : InBox s i ↔ i.length = s.length ∧ ∀ k (h : k < i.length) (h' : k < s.length), i[k] < s[k] := by
  induction s generalizing i with
  | nil => cases i <;> simp
  | cons a s ih => cases i with
    | nil => simp
    | cons b i =>
      simp only [InBox_cons, ih, List.length_cons, Nat.add_right_cancel_iff]
      constructor
      · rintro ⟨h1, h2, h3⟩
        refine ⟨h2, fun k h h' => ?_⟩
        cases k with
        | zero => simpa
        | succ k => simp; exact h3 k (by omega) (by omega)
      · rintro ⟨h2, h3⟩
        refine ⟨by simpa using h3 0 (by omega) (by omega), h2, fun k h h' => ?_⟩
        have := h3 (k+1) (by omega) (by omega)
        simpa only [List.getElem_cons_succ] using this

theorem lin_lt {s i : List Nat} (h : InBox s i) : lin s i < s.prod := by
  induction s generalizing i with
  | nil => simp
  | cons a s ih => cases i with
    | nil => simp at h
    | cons b i =>
      simp at h
      have := ih h.2
      simp only [lin_cons, List.prod_cons]
      calc b + a * lin s i < a + a * lin s i := by omega
        _ = a * (lin s i + 1) := by ring
        _ ≤ a * s.prod := Nat.mul_le_mul_left a this

theorem unlin_inBox {s : List Nat} (hs : Pos s) (k : Nat) : InBox s (unlin s k) := by
  induction s generalizing k with
  | nil => simp
  | cons a s ih => simp at hs; simp; exact ⟨Nat.mod_lt _ hs.1, ih hs.2 _⟩

theorem lin_unlin {s : List Nat} {k : Nat} (hk : k < s.prod) : lin s (unlin s k) = k := by
  induction s generalizing k with
  | nil => simp at hk; simp [hk]
  | cons a s ih =>
    simp only [List.prod_cons] at hk
    simp only [unlin_cons, lin_cons]
    rw [ih (Nat.div_lt_of_lt_mul hk)]
    exact Nat.mod_add_div k a

theorem unlin_lin {s i : List Nat} (h : InBox s i) : unlin s (lin s i) = i := by
  induction s generalizing i with
  | nil => cases i <;> simp_all
  | cons a s ih => cases i with
    | nil => simp at h
    | cons b i =>
      simp at h
      have ha : 0 < a := by omega
      simp only [lin_cons, unlin_cons, Nat.add_mul_mod_self_left, Nat.mod_eq_of_lt h.1,
        Nat.add_mul_div_left _ _ ha, Nat.div_eq_of_lt h.1, Nat.zero_add, ih h.2]

theorem lin_inj {s i j : List Nat} (hi : InBox s i) (hj : InBox s j) (h : lin s i = lin s j) : i = j := by
  rw [← unlin_lin hi, ← unlin_lin hj, h]

@[simp] theorem unlin_length {s : List Nat} {k : Nat} : (unlin s k).length = s.length := by
  induction s generalizing k with
  | nil => rfl
  | cons a s ih => simp [ih]

theorem lin_append {s t i j : List Nat} (h : i.length = s.length) :
    lin (s ++ t) (i ++ j) = lin s i + s.prod * lin t j := by
  induction s generalizing i with
  | nil => cases i <;> simp_all
  | cons a s ih => cases i with
    | nil => simp at h
    | cons b i =>
      simp at h
      simp only [List.cons_append, lin_cons, ih h, List.prod_cons]
      ring

theorem InBox_append {s t i j : List Nat} (h : i.length = s.length) :
    InBox (s ++ t) (i ++ j) ↔ InBox s i ∧ InBox t j := by
  induction s generalizing i with
  | nil => cases i <;> simp_all
  | cons a s ih => cases i with
    | nil => simp at h
    | cons b i => simp at h; simp [ih h, and_assoc]

theorem InBox.append {s t i j : List Nat} (h : InBox s i) (h' : InBox t j) : InBox (s ++ t) (i ++ j) :=
  (InBox_append h.length).2 ⟨h, h'⟩

theorem InBox.split {s t i : List Nat} (h : InBox (s ++ t) i) :
    InBox s (i.take s.length) ∧ InBox t (i.drop s.length) := by
  have hl := h.length
  have e : i = i.take s.length ++ i.drop s.length := (List.take_append_drop _ _).symm
  rw [e, InBox_append (by simp at hl ⊢; omega)] at h
  exact h

/-- Split an index of `s ++ t`. -/
theorem InBox.exists_split {s t i : List Nat} (h : InBox (s ++ t) i) :
    ∃ a b, i = a ++ b ∧ InBox s a ∧ InBox t b :=
  ⟨_, _, (List.take_append_drop s.length i).symm, h.split.1, h.split.2⟩

theorem unlin_append {s t : List Nat} (k : Nat) :
    unlin (s ++ t) k = unlin s k ++ unlin t (k / s.prod) := by
  induction s generalizing k with
  | nil => simp
  | cons a s ih => simp [ih, Nat.div_div_eq_div_mul]

/-- `unlin s` only depends on `k` modulo `s.prod`. -/
theorem unlin_mod {s : List Nat} (hs : Pos s) (k : Nat) : unlin s (k % s.prod) = unlin s k := by
  induction s generalizing k with
  | nil => simp
  | cons a s ih =>
    simp only [Pos_cons] at hs
    simp only [List.prod_cons, unlin_cons, Nat.mod_mul_right_mod]
    rw [Nat.mod_mul_right_div_self, ih hs.2]

/-! ### Tilings -/

@[simp] theorem gridOf_cons {s b : Nat} {ss bs : List Nat} : gridOf (s :: ss) (b :: bs) = ((s - 1) / b + 1) :: gridOf ss bs := rfl
@[simp] theorem gridOf_nil {b : List Nat} : gridOf [] b = [] := by cases b <;> rfl
@[simp] theorem gridOf_nil_right {s : List Nat} : gridOf s [] = [] := by cases s <;> rfl
@[simp] theorem tileIdx_cons {b i : Nat} {bs is : List Nat} : tileIdx (b :: bs) (i :: is) = i / b :: tileIdx bs is := rfl
@[simp] theorem tileIdx_nil {i : List Nat} : tileIdx [] i = [] := by cases i <;> rfl
@[simp] theorem tileIdx_nil_right {b : List Nat} : tileIdx b [] = [] := by cases b <;> rfl
@[simp] theorem locIdx_cons {b i : Nat} {bs is : List Nat} : locIdx (b :: bs) (i :: is) = i % b :: locIdx bs is := rfl
@[simp] theorem locIdx_nil {i : List Nat} : locIdx [] i = [] := by cases i <;> rfl
@[simp] theorem locIdx_nil_right {b : List Nat} : locIdx b [] = [] := by cases b <;> rfl
@[simp] theorem globIdx_cons {b t l : Nat} {bs ts ls : List Nat} :
    globIdx (b :: bs) (t :: ts) (l :: ls) = (t * b + l) :: globIdx bs ts ls := rfl
@[simp] theorem globIdx_nil {t l : List Nat} : globIdx [] t l = [] := by cases t <;> cases l <;> rfl
@[simp] theorem globIdx_nil₂ {t l : List Nat} : globIdx t [] l = [] := by cases t <;> cases l <;> rfl
@[simp] theorem globIdx_nil₃ {t l : List Nat} : globIdx t l [] = [] := by cases t <;> cases l <;> rfl
@[simp] theorem tileShape_cons {s b t : Nat} {ss bs ts : List Nat} :
    tileShape (s :: ss) (b :: bs) (t :: ts) = min b (s - t * b) :: tileShape ss bs ts := rfl
@[simp] theorem tileShape_nil {t l : List Nat} : tileShape [] t l = [] := by cases t <;> cases l <;> rfl
@[simp] theorem tileShape_nil₂ {t l : List Nat} : tileShape t [] l = [] := by cases t <;> cases l <;> rfl
@[simp] theorem tileShape_nil₃ {t l : List Nat} : tileShape t l [] = [] := by cases t <;> cases l <;> rfl

@[simp] theorem gridOf_length {S B : List Nat} (h : B.length = S.length) : (gridOf S B).length = S.length := by
  induction S generalizing B with
  | nil => simp
  | cons s S ih => cases B with
    | nil => simp at h
    | cons b B => simp at h; simp [ih h]

theorem gridOf_pos (S B : List Nat) : Pos (gridOf S B) := by
  induction S generalizing B with
  | nil => simp
  | cons s S ih => cases B with
    | nil => simp
    | cons b B => simp [ih]

theorem tileIdx_length {B I : List Nat} (h : I.length = B.length) : (tileIdx B I).length = B.length := by
  induction B generalizing I with
  | nil => simp
  | cons b B ih => cases I with
    | nil => simp at h
    | cons i I => simp at h; simp [ih h]

theorem locIdx_length {B I : List Nat} (h : I.length = B.length) : (locIdx B I).length = B.length := by
  induction B generalizing I with
  | nil => simp
  | cons b B ih => cases I with
    | nil => simp at h
    | cons i I => simp at h; simp [ih h]

theorem tileShape_length {S B T : List Nat} (h : B.length = S.length) (h' : T.length = S.length) :
    (tileShape S B T).length = S.length := by
  induction S generalizing B T with
  | nil => simp
  | cons s S ih => cases B with
    | nil => simp at h
    | cons b B => cases T with
      | nil => simp at h'
      | cons t T => simp at h h'; simp [ih h h']

theorem lt_grid_iff {s b t : Nat} (hs : 0 < s) (hb : 0 < b) : t < (s - 1) / b + 1 ↔ t * b < s := by
  rw [Nat.lt_succ_iff, Nat.le_div_iff_mul_le hb]; omega

theorem tileIdx_inBox {S B I : List Nat} (hB : Pos B) (hl : B.length = S.length) (h : InBox S I) :
    InBox (gridOf S B) (tileIdx B I) := by
  induction S generalizing B I with
  | nil => cases B <;> simp_all
  | cons s S ih => cases B with
    | nil => simp at hl
    | cons b B => cases I with
      | nil => simp at h
      | cons i I =>
        simp at hl h hB
        simp only [gridOf_cons, tileIdx_cons, InBox_cons]
        refine ⟨?_, ih hB.2 hl h.2⟩
        exact (lt_grid_iff (by omega) hB.1).2 (lt_of_le_of_lt (Nat.div_mul_le_self i b) h.1)

theorem locIdx_inBox {S B I : List Nat} (hB : Pos B) (hl : B.length = S.length) (h : InBox S I) :
    InBox (tileShape S B (tileIdx B I)) (locIdx B I) := by
  induction S generalizing B I with
  | nil => cases B <;> simp_all
  | cons s S ih => cases B with
    | nil => simp at hl
    | cons b B => cases I with
      | nil => simp at h
      | cons i I =>
        simp at hl h hB
        simp only [tileShape_cons, tileIdx_cons, locIdx_cons, InBox_cons]
        refine ⟨?_, ih hB.2 hl h.2⟩
        have := Nat.mod_add_div i b
        have h1 := Nat.mod_lt i hB.1
        have : i % b + (i / b) * b = i := by rw [Nat.mul_comm]; omega
        rw [Nat.lt_min]; omega

theorem globIdx_tile_loc {B I : List Nat} (hl : I.length = B.length) :
    globIdx B (tileIdx B I) (locIdx B I) = I := by
  induction B generalizing I with
  | nil => cases I <;> simp_all
  | cons b B ih => cases I with
    | nil => simp at hl
    | cons i I =>
      simp at hl
      simp only [tileIdx_cons, locIdx_cons, globIdx_cons, ih hl]
      rw [Nat.mul_comm, Nat.div_add_mod]

theorem globIdx_inBox {S B T L : List Nat} (hl : B.length = S.length) (hT : T.length = S.length)
    (hL : InBox (tileShape S B T) L) :
    InBox S (globIdx B T L) := by
  induction S generalizing B T L with
  | nil => cases B <;> cases T <;> cases L <;> simp_all
  | cons s S ih => cases B with
    | nil => simp at hl
    | cons b B => cases T with
      | nil => simp at hT
      | cons t T => cases L with
        | nil => simp at hL
        | cons l L =>
          simp at hl hT hL
          simp only [globIdx_cons, InBox_cons]
          exact ⟨by omega, ih hl hT hL.2⟩

theorem tileIdx_glob {S B T L : List Nat} (hl : B.length = S.length) (hT : T.length = S.length)
    (hL : InBox (tileShape S B T) L) :
    tileIdx B (globIdx B T L) = T ∧ locIdx B (globIdx B T L) = L := by
  induction S generalizing B T L with
  | nil => cases B <;> cases T <;> cases L <;> simp_all
  | cons s S ih => cases B with
    | nil => simp at hl
    | cons b B => cases T with
      | nil => simp at hT
      | cons t T => cases L with
        | nil => simp at hL
        | cons l L =>
          simp at hl hT hL
          obtain ⟨h1, h2⟩ := ih hl hT hL.2
          simp only [globIdx_cons, tileIdx_cons, locIdx_cons, h1, h2, List.cons.injEq, and_true]
          have hb : l < b := by omega
          have hb0 : 0 < b := by omega
          rw [Nat.add_comm, Nat.add_mul_div_right _ _ hb0, Nat.div_eq_of_lt hb, Nat.add_mul_mod_self_right,
            Nat.mod_eq_of_lt hb]
          simp

theorem tileShape_pos {S B T : List Nat} (hS : Pos S) (hB : Pos B) (hl : B.length = S.length)
    (hT : InBox (gridOf S B) T) : Pos (tileShape S B T) := by
  induction S generalizing B T with
  | nil => cases B <;> cases T <;> simp_all
  | cons s S ih => cases B with
    | nil => simp at hl
    | cons b B => cases T with
      | nil => simp at hT
      | cons t T =>
        simp only [Pos_cons, List.length_cons, Nat.add_right_cancel_iff, gridOf_cons, InBox_cons] at hS hB hl hT
        simp only [tileShape_cons, Pos_cons]
        have := (lt_grid_iff hS.1 hB.1).1 hT.1
        exact ⟨by rw [Nat.lt_min]; omega, ih hS.2 hB.2 hl hT.2⟩

/-! ### Append lemmas -/

theorem gridOf_append {S S' B B' : List Nat} (h : B.length = S.length) :
    gridOf (S ++ S') (B ++ B') = gridOf S B ++ gridOf S' B' := by
  induction S generalizing B with
  | nil => cases B <;> simp_all
  | cons s S ih => cases B with
    | nil => simp at h
    | cons b B => simp at h; simp [ih h]

theorem tileIdx_append {B B' I I' : List Nat} (h : I.length = B.length) :
    tileIdx (B ++ B') (I ++ I') = tileIdx B I ++ tileIdx B' I' := by
  induction B generalizing I with
  | nil => cases I <;> simp_all
  | cons b B ih => cases I with
    | nil => simp at h
    | cons i I => simp at h; simp [ih h]

theorem locIdx_append {B B' I I' : List Nat} (h : I.length = B.length) :
    locIdx (B ++ B') (I ++ I') = locIdx B I ++ locIdx B' I' := by
  induction B generalizing I with
  | nil => cases I <;> simp_all
  | cons b B ih => cases I with
    | nil => simp at h
    | cons i I => simp at h; simp [ih h]

theorem tileShape_append {S S' B B' T T' : List Nat} (h : B.length = S.length) (h' : T.length = S.length) :
    tileShape (S ++ S') (B ++ B') (T ++ T') = tileShape S B T ++ tileShape S' B' T' := by
  induction S generalizing B T with
  | nil => cases B <;> cases T <;> simp_all
  | cons s S ih => cases B with
    | nil => simp at h
    | cons b B => cases T with
      | nil => simp at h'
      | cons t T => simp at h h'; simp [ih h h']

theorem globIdx_append {B B' T T' L L' : List Nat} (h : T.length = B.length) (h' : L.length = B.length) :
    globIdx (B ++ B') (T ++ T') (L ++ L') = globIdx B T L ++ globIdx B' T' L' := by
  induction B generalizing T L with
  | nil => cases T <;> cases L <;> simp_all
  | cons b B ih => cases T with
    | nil => simp at h
    | cons t T => cases L with
      | nil => simp at h'
      | cons l L => simp at h h'; simp [ih h h']

@[simp] theorem strideFrom_length (p : Nat) (S : List Nat) : (strideFrom p S).length = S.length := by
  induction S generalizing p with
  | nil => rfl
  | cons s S ih => simp [strideFrom, ih]

end NNTile
