import Verif.Model.Traits
import Verif.Lib.Core
import Verif.Lib.Index
import Mathlib.Data.List.Induction
/-! Helper lemmas relating the `Int` model of the traits to the natural-number specification. -/
namespace NNTile

/-- Embedding of natural indices. -/
def toInts (l : List Nat) : List Int := List.map (fun n : Nat => (n : Int)) l

@[simp] theorem toInts_nil : toInts [] = [] := rfl
@[simp] theorem toInts_cons (a : Nat) (l : List Nat) : toInts (a :: l) = (a : Int) :: toInts l := rfl
@[simp] theorem toInts_append (a l : List Nat) : toInts (a ++ l) = toInts a ++ toInts l := List.map_append
@[simp] theorem toInts_length (l : List Nat) : (toInts l).length = l.length := List.length_map _
@[simp] theorem toInts_mem {x : Int} {l : List Nat} : x ∈ toInts l ↔ ∃ n ∈ l, (n : Int) = x := List.mem_map
theorem toInts_inj {a b : List Nat} : toInts a = toInts b ↔ a = b :=
  ⟨fun h => List.map_injective_iff.2 (fun _ _ h => Int.ofNat.inj h) h, fun h => h ▸ rfl⟩

theorem checkPositive_ok_iff {m : String} {l : List Int} : checkPositive m l = .ok () ↔ ∀ x ∈ l, 0 < x := by
  induction l with
  | nil => simp [checkPositive]
  | cons a l ih =>
    simp only [checkPositive, List.mem_cons, forall_eq_or_imp]
    split
    · simp; intro h; omega
    · rw [ih]; constructor
      · intro h; exact ⟨by omega, h⟩
      · intro h; exact h.2

theorem checkPositive_throws {m : String} {l : List Int} (h : ¬ ∀ x ∈ l, 0 < x) : checkPositive m l = .error (.throw m) := by
  induction l with
  | nil => simp at h
  | cons a l ih =>
    simp only [checkPositive]
    split
    · rfl
    · apply ih
      intro h'
      apply h
      simp only [List.mem_cons, forall_eq_or_imp]
      exact ⟨by omega, h'⟩

theorem toInts_pos {l : List Nat} : (∀ x ∈ toInts l, 0 < x) ↔ Pos l := by
  simp [Pos]

/-- A list of positive integers is a list of positive naturals. -/
theorem exists_nat_of_pos {l : List Int} (h : ∀ x ∈ l, 0 < x) : ∃ S : List Nat, l = toInts S ∧ Pos S := by
  induction l with
  | nil => exact ⟨[], rfl, by simp⟩
  | cons a l ih =>
    obtain ⟨S, rfl, hS⟩ := ih (fun x hx => h x (by simp [hx]))
    have ha := h a (by simp)
    exact ⟨a.toNat :: S, by simp; omega, by simp [hS]; omega⟩


theorem strideFrom_append (p : Nat) (S : List Nat) (s : Nat) :
    strideFrom p (S ++ [s]) = strideFrom p S ++ [p * S.prod] := by
  induction S generalizing p with
  | nil => simp [strideFrom]
  | cons a S ih => simp [strideFrom, ih, Nat.mul_assoc]

theorem rowsLoop_nat (p : Nat) (S : List Nat) :
    rowsLoop p (toInts S) = (toInts ((strideFrom p (S ++ [1])).tail), ((p * S.prod : Nat) : Int)) := by
  induction S generalizing p with
  | nil => simp [rowsLoop, strideFrom]
  | cons s S ih =>
    have := ih (p * s)
    simp only [toInts_cons, rowsLoop] at this ⊢
    rw [show (p : Int) * (s : Int) = ((p * s : Nat) : Int) by simp, this]
    cases S with
    | nil => simp [strideFrom]
    | cons t S => simp [strideFrom, Nat.mul_assoc]

theorem rows_take_nat (S : List Nat) :
    ((1 : Int) :: (rowsLoop 1 (toInts S)).1).take S.length = toInts (strideFrom 1 S) := by
  have h := rowsLoop_nat 1 S
  rw [show ((1 : Nat) : Int) = 1 from rfl] at h
  rw [h]
  simp only [strideFrom_append]
  cases S with
  | nil => simp [strideFrom]
  | cons s S =>
    simp only [strideFrom, List.cons_append, List.tail_cons, toInts, List.map_append, List.length_cons, List.take_succ_cons,
      List.map_cons]
    congr 1
    rw [List.take_append_of_le_length (by simp)]
    rw [List.take_of_length_le (by simp)]

theorem colsLoop_nat (S : List Nat) : colsLoop (toInts S) = toInts (S.tails.map List.prod) := by
  induction S with
  | nil => simp [colsLoop]
  | cons s S ih =>
    simp only [toInts_cons] at ih ⊢
    simp only [colsLoop, ih]
    cases S <;> simp [Int.mul_comm, mul_comm, mul_left_comm]

/-- Result of the constructor on a valid shape. -/
@[reducible] def natTraits (S : List Nat) : TileTraits :=
  { ndim := S.length, shape := toInts S, stride := toInts (strideFrom 1 S), nelems := (S.prod : Int),
    rows := 1 :: (rowsLoop 1 (toInts S)).1, cols := toInts (S.tails.map List.prod) }

theorem make_nat {S : List Nat} (h : Pos S) : TileTraits.make (toInts S) = .ok (natTraits S) := by
  have hc : checkPositive "shape[i] <= 0" (toInts S) = .ok () := checkPositive_ok_iff.2 (toInts_pos.2 h)
  simp only [TileTraits.make, hc, M.bind_ok, natTraits, colsLoop_nat]
  have h2 := rows_take_nat S
  have h := rowsLoop_nat 1 S
  rw [show ((1 : Nat) : Int) = 1 from rfl] at h
  have h3 : (rowsLoop 1 (toInts S)).2 = (S.prod : Int) := by rw [h]; simp
  simp only [List.length_map, toInts] at h2 h3 ⊢
  rw [h2, h3]

theorem make_ok_iff {shape : List Int} {t : TileTraits} :
    TileTraits.make shape = .ok t ↔ ∃ S, Pos S ∧ shape = toInts S ∧ t = natTraits S := by
  constructor
  · intro h
    by_cases hp : ∀ x ∈ shape, 0 < x
    · obtain ⟨S, rfl, hS⟩ := exists_nat_of_pos hp
      rw [make_nat hS] at h
      exact ⟨S, hS, rfl, by simpa using h.symm⟩
    · simp [TileTraits.make, checkPositive_throws hp] at h
  · rintro ⟨S, hS, rfl, rfl⟩
    exact make_nat hS

theorem make_throws {shape : List Int} (h : ¬ ∀ x ∈ shape, 0 < x) :
    TileTraits.make shape = .error (.throw "shape[i] <= 0") := by
  simp [TileTraits.make, checkPositive_throws h]

/-- Integer index inside of a shape. -/
def InBoxZ (S : List Nat) (idx : List Int) : Prop := ∃ I, idx = toInts I ∧ InBox S I

theorem indexLoop_ok {S I : List Nat} (p : Nat) (acc : Int) (h : InBox S I) :
    indexLoop (toInts I) (toInts S) (toInts (strideFrom p S)) acc = .ok (acc + (p * lin S I : Nat)) := by
  induction S generalizing I p acc with
  | nil => cases I <;> simp_all [indexLoop, strideFrom]
  | cons s S ih => cases I with
    | nil => simp at h
    | cons i I =>
      simp only [InBox_cons] at h
      simp only [toInts_cons, strideFrom, indexLoop]
      rw [if_neg (by omega)]
      have := ih (p * s) (acc + (i : Int) * (p : Int)) h.2
      rw [this]
      simp only [lin_cons, Except.ok.injEq]
      push_cast
      ring

theorem indexLoop_throws {S : List Nat} {idx : List Int} (p : Nat) (acc : Int) (hl : idx.length = S.length)
    (h : ¬ InBoxZ S idx) : indexLoop idx (toInts S) (toInts (strideFrom p S)) acc = .error (.throw "Index out of bounds") := by
  induction S generalizing idx p acc with
  | nil =>
    have : idx = [] := by simpa using hl
    subst this
    exact absurd ⟨[], rfl, trivial⟩ h
  | cons s S ih => cases idx with
    | nil => simp at hl
    | cons i idx =>
      simp only [toInts_cons, strideFrom, indexLoop]
      split
      · rfl
      · rename_i hi
        simp only [not_or, not_lt, ge_iff_le, not_le] at hi
        apply ih (p * s) _ (by simpa using hl)
        rintro ⟨I, rfl, hI⟩
        exact h ⟨i.toNat :: I, by simp; omega, by simp [hI]; omega⟩

theorem i2l_nat {S I : List Nat} (h : InBox S I) : (natTraits S).index_to_linear (toInts I) = .ok (lin S I : Nat) := by
  have hl := h.length
  simp only [TileTraits.index_to_linear, toInts_length, hl, ne_eq, not_true, if_false]
  cases S with
  | nil => cases I <;> simp_all
  | cons s S => cases I with
    | nil => simp at h
    | cons i I =>
      simp only [InBox_cons] at h
      simp only [toInts_cons, strideFrom]
      rw [if_neg (by omega)]
      have := indexLoop_ok (1 * s) (i : Int) h.2
      rw [this]
      simp

theorem i2l_throws {S : List Nat} {idx : List Int} (h : ¬ InBoxZ S idx) : Throws ((natTraits S).index_to_linear idx) := by
  simp only [TileTraits.index_to_linear, natTraits]
  by_cases hl : idx.length = S.length
  · simp only [hl, ne_eq, not_true, if_false]
    cases S with
    | nil =>
      have : idx = [] := by simpa using hl
      subst this
      exact absurd ⟨[], rfl, trivial⟩ h
    | cons s S => cases idx with
      | nil => simp at hl
      | cons i idx =>
        simp only [toInts_cons, strideFrom]
        split
        · exact ⟨_, rfl⟩
        · rename_i hi
          simp only [not_or, not_lt, ge_iff_le, not_le] at hi
          refine ⟨_, indexLoop_throws (1 * s) _ (by simpa using hl) ?_⟩
          rintro ⟨I, rfl, hI⟩
          exact h ⟨i.toNat :: I, by simp; omega, by simp [hI]; omega⟩
  · simp only [ne_eq, hl, not_false_eq_true, if_true]; exact ⟨_, rfl⟩

theorem linearLoop_nat {S : List Nat} (hS : Pos S) {p : Nat} (hp : 0 < p) (off : Nat) (h : off < p * S.prod)
    (acc : List Int) :
    linearLoop (toInts (strideFrom p S)).reverse (off : Int) acc
      = .ok (toInts (off % p :: unlin S (off / p)) ++ acc) := by
  induction S using List.reverseRecOn generalizing off acc with
  | nil =>
    simp at h
    simp [linearLoop, strideFrom, Nat.mod_eq_of_lt h]
  | append_singleton S s ih =>
    simp only [Pos_append, Pos_cons] at hS
    have hP : 0 < p * S.prod := Nat.mul_pos hp hS.1.prod
    simp only [List.prod_append, List.prod_cons, List.prod_nil, mul_one] at h
    simp only [strideFrom_append, toInts_append, toInts_cons, toInts_nil, List.reverse_append,
      List.reverse_cons, List.reverse_nil, List.nil_append, List.singleton_append, linearLoop]
    rw [if_neg (by exact_mod_cast hP.ne')]
    have e1 : (off : Int).tdiv ((p * S.prod : Nat) : Int) = ((off / (p * S.prod) : Nat) : Int) :=
      (Int.ofNat_tdiv off (p * S.prod)).symm
    rw [e1]
    have e2 : (off : Int) - ((off / (p * S.prod) : Nat) : Int) * ((p * S.prod : Nat) : Int)
        = ((off % (p * S.prod) : Nat) : Int) := by
      have := Nat.div_add_mod off (p * S.prod)
      have h3 : ((p * S.prod : Nat) : Int) * ((off / (p * S.prod) : Nat) : Int) + ((off % (p * S.prod) : Nat) : Int) = off := by
        exact_mod_cast this
      linarith [mul_comm ((p * S.prod : Nat) : Int) ((off / (p * S.prod) : Nat) : Int)]
    rw [e2]
    have := ih hS.1 (off % (p * S.prod)) (Nat.mod_lt _ hP) (((off / (p * S.prod) : Nat) : Int) :: acc)
    rw [this]
    rw [Nat.mod_mul_right_mod, Nat.mod_mul_right_div_self, unlin_mod hS.1, unlin_append]
    have h3 : off / p / S.prod < s := by
      rw [Nat.div_div_eq_div_mul]
      apply Nat.div_lt_of_lt_mul
      rw [mul_assoc]; exact h
    rw [unlin_cons, Nat.mod_eq_of_lt h3, unlin_nil, Nat.div_div_eq_div_mul]
    simp

theorem l2i_nat {S : List Nat} (hS : Pos S) {off : Nat} (h : off < S.prod) :
    (natTraits S).linear_to_index off = .ok (toInts (unlin S off)) := by
  simp only [TileTraits.linear_to_index, natTraits]
  rw [if_neg (by omega)]
  cases S with
  | nil => simp
  | cons s S =>
    simp only [Pos_cons] at hS
    simp only [List.length_cons, Nat.add_one_ne_zero, if_false, strideFrom, toInts_cons, List.tail_cons]
    have := linearLoop_nat hS.2 (p := 1 * s) (by omega) off (by simpa using h) []
    rw [this]
    simp

theorem l2i_throws {S : List Nat} {off : Int} (h : ¬ (0 ≤ off ∧ off < (S.prod : Int))) :
    Throws ((natTraits S).linear_to_index off) := by
  simp only [TileTraits.linear_to_index, natTraits]
  rw [if_pos (by omega)]
  exact ⟨_, rfl⟩

theorem InBoxZ_cons {s : Nat} {S : List Nat} {i : Int} {idx : List Int} :
    InBoxZ (s :: S) (i :: idx) ↔ (0 ≤ i ∧ i < s) ∧ InBoxZ S idx := by
  constructor
  · rintro ⟨I, h, hI⟩
    cases I with
    | nil => simp at h
    | cons j I =>
      simp only [toInts_cons, List.cons.injEq] at h
      simp only [InBox_cons] at hI
      exact ⟨by omega, I, h.2, hI.2⟩
  · rintro ⟨h, I, rfl, hI⟩
    exact ⟨i.toNat :: I, by simp; omega, by simp [hI]; omega⟩

theorem containsLoop_iff {S : List Nat} {idx : List Int} (hl : idx.length = S.length) :
    containsLoop idx (toInts S) = true ↔ InBoxZ S idx := by
  induction S generalizing idx with
  | nil =>
    have : idx = [] := by simpa using hl
    subst this
    simp only [containsLoop, true_iff]; exact ⟨[], rfl, trivial⟩
  | cons s S ih => cases idx with
    | nil => simp at hl
    | cons i idx =>
      rw [InBoxZ_cons]
      simp only [toInts_cons, containsLoop]
      split
      · simp; intro h; omega
      · have := ih (idx := idx) (by simpa using hl)
        rw [this]
        constructor
        · intro h; exact ⟨by omega, h⟩
        · intro h; exact h.2

/-! ### Tensor traits -/

theorem gridShapeLoop_nat {S B : List Nat} (hS : Pos S) (hB : Pos B) (hl : B.length = S.length) :
    gridShapeLoop (toInts S) (toInts B) = .ok (toInts (gridOf S B)) := by
  induction S generalizing B with
  | nil => simp [gridShapeLoop]
  | cons s S ih => cases B with
    | nil => simp at hl
    | cons b B =>
      simp only [Pos_cons, List.length_cons, Nat.add_right_cancel_iff] at hS hB hl
      simp only [toInts_cons, gridShapeLoop]
      rw [if_neg (by omega)]
      have := ih hS.2 hB.2 hl
      rw [this]
      simp only [M.bind_ok, gridOf_cons, toInts_cons]
      congr 2
      rw [show ((s : Int) - 1) = ((s - 1 : Nat) : Int) by omega]
      rw [Nat.cast_add, Int.ofNat_tdiv (s-1) b]; rfl

/-- Leftover sizes: the size of the last tile. -/
def leftoverOf : List Nat → List Nat → List Nat
  | s :: ss, b :: bs => (s - (s - 1) / b * b) :: leftoverOf ss bs
  | _, _ => []

theorem leftoverLoop_nat {S B : List Nat} (hS : Pos S) (hl : B.length = S.length) :
    leftoverLoop (toInts S) (toInts B) (toInts (gridOf S B)) = toInts (leftoverOf S B) := by
  induction S generalizing B with
  | nil => simp [leftoverLoop, leftoverOf]
  | cons s S ih => cases B with
    | nil => simp at hl
    | cons b B =>
      simp only [Pos_cons, List.length_cons, Nat.add_right_cancel_iff] at hS hl
      simp only [toInts_cons, leftoverLoop, gridOf_cons, leftoverOf]
      have := ih hS.2 hl
      rw [this]
      congr 1
      have h1 : (s - 1) / b * b ≤ s - 1 := Nat.div_mul_le_self _ _
      have h2 : (s - 1) / b * b ≤ s := by omega
      push_cast [Nat.cast_sub h2]
      ring

/-- Result of the tensor-traits constructor on valid arguments. -/
@[reducible] def natTensorTraits (S B : List Nat) : TensorTraits :=
  { toTile := natTraits S, basetile_shape := toInts B, grid := natTraits (gridOf S B),
    leftover_shape := toInts (leftoverOf S B) }

theorem tensor_make_nat {S B : List Nat} (hS : Pos S) (hB : Pos B) (hl : B.length = S.length) :
    TensorTraits.make (toInts S) (toInts B) = .ok (natTensorTraits S B) := by
  simp only [TensorTraits.make, make_nat hS, M.bind_ok]
  rw [if_neg (by simp [natTraits, hl])]
  rw [checkPositive_ok_iff.2 (toInts_pos.2 hB), M.bind_ok, gridShapeLoop_nat hS hB hl, M.bind_ok, make_nat (gridOf_pos S B), M.bind_ok]
  have := leftoverLoop_nat hS hl
  simp only [natTraits, natTensorTraits, this]

theorem tensor_make_ok_iff {shape basetile : List Int} {t : TensorTraits} :
    TensorTraits.make shape basetile = .ok t ↔
      ∃ S B, Pos S ∧ Pos B ∧ B.length = S.length ∧ shape = toInts S ∧ basetile = toInts B ∧ t = natTensorTraits S B := by
  constructor
  · intro h
    by_cases hp : ∀ x ∈ shape, 0 < x
    · obtain ⟨S, rfl, hS⟩ := exists_nat_of_pos hp
      by_cases hl : basetile.length = S.length
      · by_cases hq : ∀ x ∈ basetile, 0 < x
        · obtain ⟨B, rfl, hB⟩ := exists_nat_of_pos hq
          have hl' : B.length = S.length := by simpa using hl
          rw [tensor_make_nat hS hB hl'] at h
          exact ⟨S, B, hS, hB, hl', rfl, rfl, by simpa using h.symm⟩
        · simp only [TensorTraits.make, make_nat hS, M.bind_ok] at h
          rw [if_neg (by simp [natTraits, hl]), checkPositive_throws hq] at h
          simp at h
      · simp only [TensorTraits.make, make_nat hS, M.bind_ok] at h
        rw [if_pos (by simp [natTraits, hl])] at h
        simp at h
    · simp [TensorTraits.make, make_throws hp] at h
  · rintro ⟨S, B, hS, hB, hl, rfl, rfl, rfl⟩
    exact tensor_make_nat hS hB hl

theorem tensor_make_throws {shape basetile : List Int}
    (h : ¬ ((∀ x ∈ shape, 0 < x) ∧ (∀ x ∈ basetile, 0 < x) ∧ basetile.length = shape.length)) :
    Throws (TensorTraits.make shape basetile) := by
  by_cases hp : ∀ x ∈ shape, 0 < x
  · obtain ⟨S, rfl, hS⟩ := exists_nat_of_pos hp
    simp only [TensorTraits.make, make_nat hS, M.bind_ok]
    by_cases hl : basetile.length = S.length
    · rw [if_neg (by simp [natTraits, hl])]
      have hq : ¬ ∀ x ∈ basetile, 0 < x := by
        intro hq; exact h ⟨hp, hq, by simpa using hl⟩
      rw [checkPositive_throws hq]
      exact ⟨_, rfl⟩
    · rw [if_pos (by simp [natTraits, hl])]
      exact ⟨_, rfl⟩
  · simp only [TensorTraits.make, make_throws hp]
    exact ⟨_, rfl⟩

theorem tileShapeLoop_nat {S B T : List Nat} (hS : Pos S) (hB : Pos B) (hl : B.length = S.length)
    (hT : InBox (gridOf S B) T) :
    tileShapeLoop (toInts T) (toInts (gridOf S B)) (toInts B) (toInts (leftoverOf S B))
      = .ok (toInts (tileShape S B T)) := by
  induction S generalizing B T with
  | nil => cases T <;> simp_all [tileShapeLoop]
  | cons s S ih => cases B with
    | nil => simp at hl
    | cons b B => cases T with
      | nil => simp at hT
      | cons t T =>
        simp only [Pos_cons, List.length_cons, Nat.add_right_cancel_iff, gridOf_cons, InBox_cons] at hS hB hl hT
        simp only [toInts_cons, tileShapeLoop, gridOf_cons, leftoverOf]
        rw [if_neg (by omega)]
        have := ih hS.2 hB.2 hl hT.2
        rw [this]
        simp only [M.bind_ok, tileShape_cons, toInts_cons]
        congr 2
        have hlt := (lt_grid_iff hS.1 hB.1).1 hT.1
        by_cases hlast : t = (s - 1) / b
        · subst hlast
          rw [if_pos (by push_cast; ring)]
          have h2 : s - 1 < ((s - 1) / b + 1) * b := by
            have := Nat.lt_mul_div_succ (s - 1) hB.1
            rw [mul_comm]; exact this
          rw [Nat.add_mul, one_mul] at h2
          congr 1
          omega
        · have h3 : t + 1 ≤ (s - 1) / b := by omega
          have h4 := (Nat.le_div_iff_mul_le hB.1).1 h3
          rw [if_neg (by push_cast; omega)]
          rw [Nat.add_mul, one_mul] at h4
          congr 1
          omega

theorem tileShapeLoop_throws {S B : List Nat} {idx : List Int} (hl : B.length = S.length)
    (hi : idx.length = S.length) (h : ¬ InBoxZ (gridOf S B) idx) :
    Throws (tileShapeLoop idx (toInts (gridOf S B)) (toInts B) (toInts (leftoverOf S B))) := by
  induction S generalizing B idx with
  | nil =>
    have : idx = [] := by simpa using hi
    subst this
    exact absurd ⟨[], rfl, by simp⟩ h
  | cons s S ih => cases B with
    | nil => simp at hl
    | cons b B => cases idx with
      | nil => simp at hi
      | cons i idx =>
        simp only [List.length_cons, Nat.add_right_cancel_iff] at hl hi
        rw [gridOf_cons, InBoxZ_cons] at h
        simp only [toInts_cons, tileShapeLoop, gridOf_cons, leftoverOf]
        split
        · exact ⟨_, rfl⟩
        · rename_i hr
          obtain ⟨m, hm⟩ := ih hl hi (fun h' => h ⟨by omega, h'⟩)
          rw [hm]
          exact ⟨_, rfl⟩

theorem get_tile_shape_nat {S B T : List Nat} (hS : Pos S) (hB : Pos B) (hl : B.length = S.length)
    (hT : InBox (gridOf S B) T) :
    (natTensorTraits S B).get_tile_shape (toInts T) = .ok (toInts (tileShape S B T)) := by
  simp only [TensorTraits.get_tile_shape, natTensorTraits]
  rw [if_neg (by simp [natTraits, hT.length, gridOf_length hl])]
  exact tileShapeLoop_nat hS hB hl hT

theorem get_tile_shape_throws {S B : List Nat} {idx : List Int} (hl : B.length = S.length)
    (h : ¬ InBoxZ (gridOf S B) idx) : Throws ((natTensorTraits S B).get_tile_shape idx) := by
  simp only [TensorTraits.get_tile_shape, natTensorTraits]
  by_cases hi : idx.length = S.length
  · rw [if_neg (by simp [natTraits, hi])]
    exact tileShapeLoop_throws hl hi h
  · rw [if_pos (by simp [natTraits, hi])]
    exact ⟨_, rfl⟩

theorem tileTraitsLoop_nat {S B : List Nat} (hS : Pos S) (hB : Pos B) (hl : B.length = S.length) (n : Nat)
    (hn : n ≤ (gridOf S B).prod) :
    tileTraitsLoop (natTensorTraits S B) n
      = .ok ((List.range n).map fun k => natTraits (tileShape S B (unlin (gridOf S B) k))) := by
  induction n with
  | zero => rfl
  | succ n ih =>
    have hT := unlin_inBox (gridOf_pos S B) n
    simp only [tileTraitsLoop, ih (by omega), M.bind_ok]
    have h1 : (natTensorTraits S B).grid.linear_to_index (n : Int) = _ := l2i_nat (gridOf_pos S B) (off := n) (by omega)
    rw [h1, M.bind_ok, get_tile_shape_nat hS hB hl hT, M.bind_ok, make_nat (tileShape_pos hS hB hl hT), M.bind_ok,
      List.range_succ, List.map_append]
    rfl

/-! ### Block-cyclic -/

theorem modLoop_nat {I G : List Nat} (hG : Pos G) (hl : G.length = I.length) :
    modLoop (toInts I) (toInts G) = .ok (toInts (locIdx G I)) := by
  induction I generalizing G with
  | nil => simp [modLoop]
  | cons i I ih => cases G with
    | nil => simp at hl
    | cons g G =>
      simp only [Pos_cons, List.length_cons, Nat.add_right_cancel_iff] at hG hl
      simp only [toInts_cons, modLoop]
      rw [if_neg (by omega)]
      have := ih hG.2 hl
      rw [this]
      rfl

theorem rankLoop_nat {I G : List Nat} (hl : G.length = I.length) (hne : I ≠ []) :
    rankLoop (toInts I) (toInts G) = .ok (lin G I : Nat) := by
  induction I generalizing G with
  | nil => exact absurd rfl hne
  | cons i I ih => cases G with
    | nil => simp at hl
    | cons g G =>
      simp only [List.length_cons, Nat.add_right_cancel_iff] at hl
      cases I with
      | nil =>
        have : G = [] := by simpa using hl
        subst this
        simp [rankLoop]
      | cons j I =>
        have := ih hl (by simp)
        simp only [toInts_cons] at this ⊢
        simp only [rankLoop]
        rw [this]
        simp only [M.bind_ok, lin_cons]
        congr 1
        push_cast
        ring

theorem blockCyclicLoop_nat {D G : List Nat} (hD : Pos D) (hG : Pos G) (hl : G.length = D.length) (hne : D ≠ [])
    (st mx : Nat) (n : Nat) (hn : n ≤ D.prod) :
    blockCyclicLoop (natTraits D) (toInts G) st mx n
      = .ok ((List.range n).map fun k => (((lin G (locIdx G (unlin D k)) + st) % mx : Nat) : Int)) := by
  induction n with
  | zero => rfl
  | succ n ih =>
    simp only [blockCyclicLoop, ih (by omega), M.bind_ok]
    rw [l2i_nat hD (off := n) (by omega), M.bind_ok, modLoop_nat hG (by simp [hl]), M.bind_ok, rankLoop_nat, M.bind_ok,
      List.range_succ, List.map_append]
    · simp only [List.map_cons, List.map_nil]
      congr 3
    · rw [locIdx_length (by simp [hl])]
    · intro h
      have := congrArg List.length h
      rw [locIdx_length (by simp [hl])] at this
      simp only [List.length_nil] at this
      apply hne
      apply List.eq_nil_of_length_eq_zero
      omega

end NNTile
