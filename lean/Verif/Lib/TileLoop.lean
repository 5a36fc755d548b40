import Verif.Model.TileLoop
import Verif.Lib.Odometer
import Verif.Lib.Task
/-! Lemmas about tile loops with counters. -/
namespace NNTile

theorem odoLoop_ok {σ τ : Type _} {next : σ → M σ} {body : Nat → σ → M (List τ)} {S : Nat → σ} {g : Nat → List τ} {n : Nat}
    (hnext : ∀ i, i + 1 < n → next (S i) = .ok (S (i+1))) (hbody : ∀ i, i < n → body i (S i) = .ok (g i)) :
    odoLoop next body n 0 (S 0) = .ok ((List.range n).flatMap g) := by
  have key : ∀ r i, i + r = n → odoLoop next body r i (S i) = .ok ((List.range' i r).flatMap g) := by
    intro r
    induction r with
    | zero => intro i _; rfl
    | succ r ih =>
      intro i hi
      simp only [odoLoop]
      rw [hbody i (by omega), M.bind_ok]
      by_cases hr : r = 0
      · subst hr; simp
      · rw [if_neg hr, hnext i (by omega), M.bind_ok, ih (i+1) (by omega), M.bind_ok, List.range'_succ, List.flatMap_cons]
  rw [key n 0 (by omega), List.range_eq_range']

theorem gridCarry_spec {g j : List Nat} (h : InBox g j) (hlt : lin g j + 1 < g.prod) :
    gridCarry (incHead j) g = .ok (nxt g j) := by
  induction g generalizing j with
  | nil => simp at hlt
  | cons c g ih =>
    cases j with
    | nil => simp at h
    | cons b j =>
      simp only [InBox_cons] at h
      simp only [lin_cons, List.prod_cons] at hlt
      have hl := h.2.length
      simp only [incHead_cons, nxt]
      by_cases hb : b + 1 = c
      · have h1 : lin g j + 1 < g.prod := by
          have : c * (lin g j + 1) < c * g.prod := by rw [Nat.mul_add]; omega
          exact Nat.lt_of_mul_lt_mul_left this
        cases j with
        | nil => simp at hl; have := List.eq_nil_of_length_eq_zero hl.symm; subst this; simp at h1
        | cons b1 j =>
          have := ih h.2 h1
          simp only [incHead_cons] at this
          simp only [gridCarry]
          rw [if_pos hb, this, if_pos hb]; rfl
      · rw [if_neg hb]
        cases j with
        | nil => simp only [gridCarry]; rw [if_neg hb]
        | cons b1 j => simp only [gridCarry]; rw [if_neg hb]

theorem gridNext_spec {g : List Nat} (hg : Pos g) {i : Nat} (hi : i + 1 < g.prod) :
    gridNext g (unlin g i) = .ok (unlin g (i + 1)) := by
  have hbox := unlin_inBox hg i
  have hlin : lin g (unlin g i) = i := lin_unlin (by omega)
  have h := gridCarry_spec hbox (by rw [hlin]; omega)
  rw [nxt_eq_unlin hbox (by rw [hlin]; omega), hlin] at h
  cases g with
  | nil => simp at hi
  | cons a g => simp only [unlin_cons, incHead_cons] at h; simp only [gridNext, unlin_cons]; exact h

theorem unlin_zero (g : List Nat) : unlin g 0 = List.replicate g.length 0 := by
  induction g with
  | nil => rfl
  | cons a g ih => simp [ih, List.replicate_succ]

theorem globIdx_eq_addIdx (B T L : List Nat) : globIdx B T L = addIdx (mulIdx T B) L := by
  induction B generalizing T L with
  | nil => cases T <;> simp [mulIdx]
  | cons b B ih => cases T with
    | nil => simp [mulIdx]
    | cons t T => cases L with
      | nil => simp
      | cons l L => simp [mulIdx, ih]

theorem mulIdx_length {a b : List Nat} (h : a.length = b.length) : (mulIdx a b).length = b.length := by
  induction a generalizing b with
  | nil => cases b <;> simp_all [mulIdx]
  | cons x a ih => cases b with
    | nil => simp at h
    | cons y b => simp at h; simp [mulIdx, ih h]

end NNTile
