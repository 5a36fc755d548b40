import Verif.Model.Subcopy
import Verif.Lib.Core
import Verif.Lib.Index
import Verif.Lib.Rng
/-! The odometer (multi-index counter) used by `subcopy`, `randn` and the tile loops. -/
namespace NNTile

@[simp] theorem dot_cons (d i : Nat) (ds is : List Nat) : dot (d :: ds) (i :: is) = i * d + dot ds is := rfl
@[simp] theorem dot_nil (l : List Nat) : dot [] l = 0 := by cases l <;> rfl
@[simp] theorem dot_nil_right (l : List Nat) : dot l [] = 0 := by cases l <;> rfl
@[simp] theorem addIdx_cons (d i : Nat) (ds is : List Nat) : addIdx (d :: ds) (i :: is) = (d + i) :: addIdx ds is := rfl
@[simp] theorem addIdx_nil (l : List Nat) : addIdx [] l = [] := by cases l <;> rfl
@[simp] theorem addIdx_nil_right (l : List Nat) : addIdx l [] = [] := by cases l <;> rfl
@[simp] theorem incHead_cons (i : Nat) (is : List Nat) : incHead (i :: is) = (i + 1) :: is := rfl

theorem addIdx_length {a b : List Nat} (h : b.length = a.length) : (addIdx a b).length = a.length := by
  induction a generalizing b with
  | nil => simp
  | cons x a ih => cases b with
    | nil => simp at h
    | cons y b => simp at h; simp [ih h]

theorem dot_addIdx {d a b : List Nat} (h : b.length = a.length) : dot d (addIdx a b) = dot d a + dot d b := by
  induction a generalizing b d with
  | nil => cases b <;> simp_all
  | cons x a ih => cases b with
    | nil => simp at h
    | cons y b =>
      simp at h
      cases d with
      | nil => simp
      | cons e d => simp [ih h]; ring

theorem addIdx_zero {a : List Nat} {n : Nat} (h : n = a.length) : addIdx a (List.replicate n 0) = a := by
  induction a generalizing n with
  | nil => simp
  | cons x a ih => subst h; simp [List.replicate_succ, ih rfl]

/-- The next multi-index in column-major order. -/
def nxt : List Nat → List Nat → List Nat
  | s :: ss, j :: js => if j + 1 = s then 0 :: nxt ss js else (j + 1) :: js
  | _, _ => []

theorem nxt_spec {s j : List Nat} (h : InBox s j) (hlt : lin s j + 1 < s.prod) :
    InBox s (nxt s j) ∧ lin s (nxt s j) = lin s j + 1 := by
  induction s generalizing j with
  | nil => cases j <;> simp_all
  | cons a s ih => cases j with
    | nil => simp at h
    | cons b j =>
      simp only [InBox_cons] at h
      simp only [lin_cons, List.prod_cons] at hlt
      simp only [nxt]
      split
      · rename_i hb
        have h1 : lin s j + 1 < s.prod := by
          have : a * (lin s j + 1) < a * s.prod := by
            rw [Nat.mul_add]; omega
          exact Nat.lt_of_mul_lt_mul_left this
        obtain ⟨h2, h3⟩ := ih h.2 h1
        refine ⟨by simp [h2]; omega, ?_⟩
        simp only [lin_cons, h3, Nat.mul_add]
        omega
      · exact ⟨by simp [h.2]; omega, by simp; omega⟩

theorem nxt_eq_unlin {s j : List Nat} (h : InBox s j) (hlt : lin s j + 1 < s.prod) :
    nxt s j = unlin s (lin s j + 1) := by
  obtain ⟨h1, h2⟩ := nxt_spec h hlt
  rw [← h2, unlin_lin h1]

/-- The carry loop of `subcopy` moves to the next multi-index and keeps the offset in step. -/
theorem subcopyCarry_spec {st sh sd j : List Nat} (hst : st.length = sh.length) (hsd : sd.length = sh.length)
    (h : InBox sh j) (hlt : lin sh j + 1 < sh.prod) (e : Int) :
    subcopyCarry (incHead (addIdx st j)) st sh sd (e + dot sd (incHead (addIdx st j)))
      = .ok (addIdx st (nxt sh j), e + dot sd (addIdx st (nxt sh j))) := by
  induction sh generalizing st sd j e with
  | nil => simp at hlt
  | cons c sh ih =>
    cases st with
    | nil => simp at hst
    | cons s st => cases sd with
      | nil => simp at hsd
      | cons d sd => cases j with
        | nil => simp at h
        | cons b j =>
          simp only [List.length_cons, Nat.add_right_cancel_iff] at hst hsd
          simp only [InBox_cons] at h
          simp only [lin_cons, List.prod_cons] at hlt
          have hl := h.2.length
          simp only [addIdx_cons, incHead_cons, nxt]
          by_cases hb : b + 1 = c
          · have h1 : lin sh j + 1 < sh.prod := by
              have : c * (lin sh j + 1) < c * sh.prod := by rw [Nat.mul_add]; omega
              exact Nat.lt_of_mul_lt_mul_left this
            cases sh with
            | nil => simp at h1
            | cons c1 sh => cases st with
              | nil => simp at hst
              | cons s1 st => cases sd with
                | nil => simp at hsd
                | cons d1 sd => cases j with
                  | nil => simp at hl
                  | cons b1 j =>
                    have := ih (st := s1 :: st) (sd := d1 :: sd) (j := b1 :: j) (by simpa using hst) (by simpa using hsd) h.2 h1
                      (e + (s : Int) * d)
                    simp only [addIdx_cons, incHead_cons] at this
                    simp only [addIdx_cons, subcopyCarry]
                    rw [if_pos (by omega)]
                    have e1 : (e + (dot (d :: d1 :: sd) ((s + b + 1) :: (s1 + b1) :: addIdx st j) : Nat) + ((d1 : Int) - (c : Int) * (d : Int)))
                        = e + (s : Int) * d + (dot (d1 :: sd) ((s1 + b1 + 1) :: addIdx st j) : Nat) := by
                      simp only [dot_cons]
                      rw [← hb]
                      push_cast
                      ring
                    rw [e1, this, M.bind_ok, if_pos hb]
                    simp only [addIdx_cons, dot_cons, Nat.add_zero]
                    congr 2
                    push_cast
                    ring
          · rw [if_neg hb]
            cases st with
            | nil =>
              have : sh = [] := List.eq_nil_of_length_eq_zero (by simpa using hst.symm)
              subst this
              have : sd = [] := List.eq_nil_of_length_eq_zero (by simpa using hsd)
              subst this
              simp only [addIdx_nil, subcopyCarry]
              rw [if_neg (by omega)]
              simp [Nat.add_assoc]
            | cons s1 st =>
              cases sh with
              | nil => simp at hst
              | cons c1 sh => cases sd with
                | nil => simp at hsd
                | cons d1 sd => cases j with
                  | nil => simp at hl
                  | cons b1 j =>
                    simp only [addIdx_cons, subcopyCarry]
                    rw [if_neg (by omega)]
                    simp [Nat.add_assoc]

/-- The carry loop of `randn`. -/
theorem randnCarry_spec {sh us sd j : List Nat} (hus : us.length = sh.length) (hsd : sd.length = sh.length)
    (h : InBox sh j) (hlt : lin sh j + 1 < sh.prod) (ustride : Nat) (e f : Int) :
    randnCarry (incHead j) sh us sd (e + ustride * (lin us (incHead j) : Nat)) ustride (f + dot sd (incHead j))
      = .ok (nxt sh j, e + ustride * (lin us (nxt sh j) : Nat), f + dot sd (nxt sh j)) := by
  induction sh generalizing us sd j e f ustride with
  | nil => simp at hlt
  | cons c sh ih =>
    cases us with
    | nil => simp at hus
    | cons u us => cases sd with
      | nil => simp at hsd
      | cons d sd => cases j with
        | nil => simp at h
        | cons b j =>
          simp only [List.length_cons, Nat.add_right_cancel_iff] at hus hsd
          simp only [InBox_cons] at h
          simp only [lin_cons, List.prod_cons] at hlt
          have hl := h.2.length
          simp only [incHead_cons, nxt]
          by_cases hb : b + 1 = c
          · have h1 : lin sh j + 1 < sh.prod := by
              have : c * (lin sh j + 1) < c * sh.prod := by rw [Nat.mul_add]; omega
              exact Nat.lt_of_mul_lt_mul_left this
            cases sh with
            | nil => simp at h1
            | cons c1 sh => cases us with
              | nil => simp at hus
              | cons u1 us => cases sd with
                | nil => simp at hsd
                | cons d1 sd => cases j with
                  | nil => simp at hl
                  | cons b1 j =>
                    have := ih (us := u1 :: us) (sd := d1 :: sd) (j := b1 :: j) (by simpa using hus) (by simpa using hsd) h.2 h1
                      (ustride * u) e f
                    simp only [incHead_cons] at this
                    simp only [randnCarry]
                    rw [if_pos hb]
                    have e1 : (e + (ustride : Int) * (lin (u :: u1 :: us) ((b + 1) :: b1 :: j) : Nat) + (ustride : Int) * ((u : Int) - (c : Int)))
                        = e + ((ustride * u : Nat) : Int) * (lin (u1 :: us) ((b1 + 1) :: j) : Nat) := by
                      simp only [lin_cons]
                      rw [← hb]
                      push_cast
                      ring
                    have e2 : (f + (dot (d :: d1 :: sd) ((b + 1) :: b1 :: j) : Nat) + ((d1 : Int) - (d : Int) * (c : Int)))
                        = f + (dot (d1 :: sd) ((b1 + 1) :: j) : Nat) := by
                      simp only [dot_cons]
                      rw [← hb]
                      push_cast
                      ring
                    rw [e1, e2, show (ustride : Int) * (u : Int) = ((ustride * u : Nat) : Int) by push_cast; ring, this, M.bind_ok, if_pos hb]
                    simp only [dot_cons, lin_cons, Nat.zero_add, Nat.zero_mul]
                    congr 3
                    push_cast
                    ring
          · rw [if_neg hb]
            cases us with
            | nil =>
              have : sh = [] := List.eq_nil_of_length_eq_zero (by simpa using hus.symm)
              subst this
              have : sd = [] := List.eq_nil_of_length_eq_zero (by simpa using hsd)
              subst this
              have : j = [] := List.eq_nil_of_length_eq_zero (by simpa using hl)
              subst this
              simp only [randnCarry]
              rw [if_neg hb]
            | cons u1 us =>
              cases sh with
              | nil => simp at hus
              | cons c1 sh => cases sd with
                | nil => simp at hsd
                | cons d1 sd => cases j with
                  | nil => simp at hl
                  | cons b1 j =>
                    simp only [randnCarry]
                    rw [if_neg hb]

theorem lin_addIdx {u a b : List Nat} (h : b.length = a.length) : lin u (addIdx a b) = lin u a + lin u b := by
  induction a generalizing b u with
  | nil => cases b <;> simp_all
  | cons x a ih => cases b with
    | nil => simp at h
    | cons y b =>
      simp at h
      cases u with
      | nil => simp
      | cons e u => simp [ih h]; ring

theorem dot_strideFrom (p : Nat) (S I : List Nat) : dot (strideFrom p S) I = p * lin S I := by
  induction S generalizing p I with
  | nil => simp [strideFrom]
  | cons s S ih => cases I with
    | nil => simp
    | cons i I => simp [strideFrom, ih]; ring

theorem dot_stride (S I : List Nat) : dot (strideFrom 1 S) I = lin S I := by rw [dot_strideFrom, Nat.one_mul]

theorem addIdx_inj {a i j : List Nat} (hi : i.length = a.length) (hj : j.length = a.length) (h : addIdx a i = addIdx a j) : i = j := by
  induction a generalizing i j with
  | nil => simp at hi hj; simp [hi, hj]
  | cons x a ih => cases i with
    | nil => simp at hi
    | cons y i => cases j with
      | nil => simp at hj
      | cons z j =>
        simp at hi hj h
        simp [h.1, ih hi hj h.2]

end NNTile
