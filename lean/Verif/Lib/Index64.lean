import Verif.Model.Index64
import Verif.Lib.Traits
/-!
# Index arithmetic in 64 bits: when it is the arithmetic of integers
-/
namespace NNTile

theorem fit64_ok {x : Int} (h1 : 0 ≤ x) (h2 : x < 2 ^ 63) : fit64 x = .ok x := if_pos ⟨by omega, h2⟩
theorem fit64_ub {x : Int} (h : 2 ^ 63 ≤ x) : fit64 x = .error (.ub "signed overflow") := if_neg fun c => by
  have := c.2
  omega

theorem Pos.prod_pos {S : List Nat} (h : Pos S) : 0 < S.prod := h.prod

theorem rowsLoop64_nat : ∀ {S : List Nat} {p : Nat}, Pos S → p * S.prod < 2 ^ 63 → rowsLoop64 p (toInts S) = .ok (rowsLoop p (toInts S))
  | [], _, _, _ => rfl
  | s :: S, p, hS, h => by
    rw [Pos_cons] at hS
    rw [List.prod_cons, ← Nat.mul_assoc] at h
    have h1 : p * s ≤ p * s * S.prod := Nat.le_mul_of_pos_right _ hS.2.prod_pos
    have e : (p : Int) * (s : Int) = ((p * s : Nat) : Int) := by simp
    rw [toInts_cons, rowsLoop64, rowsLoop, e, fit64_ok (by omega) (by omega), M.bind_ok, rowsLoop64_nat hS.2 h]
    rfl

theorem rowsLoop64_ub : ∀ {S : List Nat} {p : Nat}, Pos S → p < 2 ^ 63 → 2 ^ 63 ≤ p * S.prod → IsUB (rowsLoop64 p (toInts S))
  | [], p, _, hp, h => by
    rw [List.prod_nil, Nat.mul_one] at h
    omega
  | s :: S, p, hS, hp, h => by
    rw [Pos_cons] at hS
    rw [List.prod_cons, ← Nat.mul_assoc] at h
    have e : (p : Int) * (s : Int) = ((p * s : Nat) : Int) := by simp
    rw [toInts_cons, rowsLoop64, e]
    by_cases c : p * s < 2 ^ 63
    · rw [fit64_ok (by omega) (by omega), M.bind_ok]
      obtain ⟨m, hm⟩ := rowsLoop64_ub hS.2 c h
      exact ⟨m, by rw [hm]; rfl⟩
    · rw [fit64_ub (by omega)]
      exact ⟨_, rfl⟩

theorem colsLoop64_nat : ∀ {S : List Nat}, Pos S → S.prod < 2 ^ 63 → colsLoop64 (toInts S) = .ok (colsLoop (toInts S))
  | [], _, _ => rfl
  | s :: S, hS, h => by
    rw [Pos_cons] at hS
    rw [List.prod_cons] at h
    have h1 : S.prod ≤ s * S.prod := Nat.le_mul_of_pos_left _ hS.1
    have hd : (colsLoop (toInts S)).headD 1 = (S.prod : Int) := by
      rw [colsLoop_nat]
      cases S <;> simp [toInts]
    have e : (S.prod : Int) * (s : Int) = ((s * S.prod : Nat) : Int) := by
      rw [Nat.mul_comm]
      simp
    rw [toInts_cons, colsLoop64, colsLoop, colsLoop64_nat hS.2 (by omega), M.bind_ok, hd, e, fit64_ok (by omega) (by omega)]
    rfl

theorem make64_nat {S : List Nat} (hS : Pos S) (h : S.prod < 2 ^ 63) : TileTraits.make64 (toInts S) = TileTraits.make (toInts S) := by
  unfold TileTraits.make64 TileTraits.make
  have := rowsLoop64_nat (S := S) (p := 1) hS (by omega)
  rw [show ((1 : Nat) : Int) = 1 from rfl] at this
  rw [this, colsLoop64_nat hS h, M.bind_ok, M.bind_ok]

theorem indexLoop64_nat : ∀ {S : List Nat} {idx : List Int} {p acc : Nat}, Pos S → acc < p → p * S.prod < 2 ^ 63 →
    indexLoop64 idx (toInts S) (toInts (strideFrom p S)) acc = indexLoop idx (toInts S) (toInts (strideFrom p S)) acc
  | [], idx, _, _, _, _, _ => by cases idx <;> rfl
  | _ :: _, [], _, _, _, _, _ => rfl
  | s :: S, i :: idx, p, acc, hS, ha, h => by
    rw [Pos_cons] at hS
    rw [List.prod_cons, ← Nat.mul_assoc] at h
    rw [strideFrom, toInts_cons, toInts_cons, indexLoop64, indexLoop]
    by_cases c : i < 0 ∨ i ≥ s
    · rw [if_pos c, if_pos c]
    · rw [if_neg c, if_neg c]
      obtain ⟨k, rfl⟩ : ∃ k : Nat, i = k := ⟨i.toNat, by omega⟩
      have hk : k + 1 ≤ s := by omega
      have h1 : p * s ≤ p * s * S.prod := Nat.le_mul_of_pos_right _ hS.2.prod_pos
      have h2 : p * (k + 1) ≤ p * s := Nat.mul_le_mul_left _ hk
      rw [Nat.mul_add, Nat.mul_one] at h2
      have e : (k : Int) * (p : Int) = ((p * k : Nat) : Int) := by
        rw [Nat.mul_comm]
        simp
      have e' : (acc : Int) + ((p * k : Nat) : Int) = ((acc + p * k : Nat) : Int) := by simp
      rw [e, fit64_ok (by omega) (by omega), M.bind_ok, e', fit64_ok (by omega) (by omega), M.bind_ok]
      exact indexLoop64_nat hS.2 (by omega) h

theorem i2l64_nat {S : List Nat} (hS : Pos S) (h : S.prod < 2 ^ 63) (idx : List Int) : (natTraits S).index_to_linear64 idx = (natTraits S).index_to_linear idx := by
  unfold TileTraits.index_to_linear64 TileTraits.index_to_linear
  by_cases c : idx.length ≠ (natTraits S).ndim
  · rw [if_pos c, if_pos c]
  · rw [if_neg c, if_neg c]
    cases S with
    | nil => cases idx <;> rfl
    | cons s S =>
      cases idx with
      | nil => rfl
      | cons i idx =>
        rw [Pos_cons] at hS
        simp only [strideFrom, toInts_cons]
        by_cases c : i < 0 ∨ i ≥ s
        · rw [if_pos c, if_pos c]
        · rw [if_neg c, if_neg c]
          obtain ⟨k, rfl⟩ : ∃ k : Nat, i = k := ⟨i.toNat, by omega⟩
          rw [List.prod_cons] at h
          exact indexLoop64_nat hS.2 (by omega) (by rw [Nat.one_mul]; exact h)

theorem linearLoop64_nat : ∀ {ds : List Int} {off : Nat} {acc : List Int}, (∀ d ∈ ds, 0 < d) → off < 2 ^ 63 → linearLoop64 ds off acc = linearLoop ds off acc
  | [], _, _, _, _ => rfl
  | d :: ds, off, acc, hd, ho => by
    have h0 := hd d (by simp)
    obtain ⟨n, rfl⟩ : ∃ n : Nat, d = n := ⟨d.toNat, by omega⟩
    have e1 : (off : Int).tdiv (n : Int) = ((off / n : Nat) : Int) := (Int.ofNat_tdiv off n).symm
    have h1 : off / n * n ≤ off := Nat.div_mul_le_self _ _
    have h2 : off / n ≤ off := Nat.div_le_self _ _
    have e2 : ((off / n : Nat) : Int) * (n : Int) = ((off / n * n : Nat) : Int) := by simp
    have e3 : (off : Int) - ((off / n * n : Nat) : Int) = ((off - off / n * n : Nat) : Int) := by omega
    rw [linearLoop64, linearLoop, if_neg (by omega), div64, if_neg (by omega), e1]
    dsimp only
    rw [e2, e3]
    generalize off / n = k at *
    generalize k * n = l at *
    rw [fit64_ok (by omega) (by omega), M.bind_ok, e2, fit64_ok (by omega) (by omega), M.bind_ok, e3, fit64_ok (by omega) (by omega), M.bind_ok]
    exact linearLoop64_nat (fun d h => hd d (List.mem_cons_of_mem _ h)) (by omega)

theorem strideFrom_pos : ∀ {S : List Nat} {p : Nat}, Pos S → 0 < p → Pos (strideFrom p S)
  | [], _, _, _ => by simp [strideFrom]
  | s :: S, p, hS, hp => by
    rw [Pos_cons] at hS
    rw [strideFrom, Pos_cons]
    exact ⟨hp, strideFrom_pos hS.2 (Nat.mul_pos hp hS.1)⟩

theorem l2i64_nat {S : List Nat} (hS : Pos S) (h : S.prod < 2 ^ 63) (off : Int) : (natTraits S).linear_to_index64 off = (natTraits S).linear_to_index off := by
  unfold TileTraits.linear_to_index64 TileTraits.linear_to_index
  by_cases c : off < 0 ∨ off ≥ (natTraits S).nelems
  · rw [if_pos c, if_pos c]
  · rw [if_neg c, if_neg c]
    by_cases c' : (natTraits S).ndim = 0
    · rw [if_pos c', if_pos c']
    · rw [if_neg c', if_neg c']
      change ¬ (off < 0 ∨ off ≥ ((S.prod : Nat) : Int)) at c
      obtain ⟨k, rfl⟩ : ∃ k : Nat, off = k := ⟨off.toNat, by omega⟩
      refine linearLoop64_nat (fun d hd => ?_) (by omega)
      have hd' : d ∈ toInts (strideFrom 1 S) := List.mem_of_mem_tail (List.mem_reverse.1 hd)
      exact toInts_pos.2 (strideFrom_pos hS (by omega)) d hd'

theorem prod_le_of_forall {S : List Nat} : ∀ {G : List Nat}, List.Forall₂ (fun g s => g ≤ s) G S → G.prod ≤ S.prod := by
  intro G h
  induction h with
  | nil => exact Nat.le_refl _
  | cons h1 _ ih =>
    rw [List.prod_cons, List.prod_cons]
    exact Nat.mul_le_mul h1 ih

/-- All extents of a shape with less than `2 ^ 63` elements are less. -/
theorem Pos.le_prod : ∀ {S : List Nat} {s : Nat}, Pos S → s ∈ S → s ≤ S.prod
  | a :: S, s, hS, hs => by
    rw [Pos_cons] at hS
    rw [List.prod_cons]
    rcases List.mem_cons.1 hs with rfl | hs
    · exact Nat.le_mul_of_pos_right _ hS.2.prod_pos
    · exact Nat.le_trans (Pos.le_prod hS.2 hs) (Nat.le_mul_of_pos_left _ hS.1)

theorem gridShapeLoop64_nat : ∀ {S B : List Nat}, Pos S → Pos B → B.length = S.length → (∀ s ∈ S, s < 2 ^ 63) → gridShapeLoop64 (toInts S) (toInts B) = gridShapeLoop (toInts S) (toInts B)
  | [], _, _, _, _, _ => by simp [gridShapeLoop64, gridShapeLoop]
  | _ :: _, [], _, _, h, _ => by simp at h
  | s :: S, b :: B, hS, hB, hl, h => by
    simp only [Pos_cons, List.length_cons, Nat.add_right_cancel_iff] at hS hB hl
    have hs := h s (by simp)
    have ih := gridShapeLoop64_nat hS.2 hB.2 hl fun s' h' => h s' (List.mem_cons_of_mem _ h')
    rw [toInts_cons, toInts_cons, gridShapeLoop64, gridShapeLoop, if_neg (by omega), ih]
    have e : (s : Int) - 1 = ((s - 1 : Nat) : Int) := by omega
    have e1 : ((s - 1 : Nat) : Int).tdiv (b : Int) = (((s - 1) / b : Nat) : Int) := (Int.ofNat_tdiv (s - 1) b).symm
    have h2 : (s - 1) / b ≤ s - 1 := Nat.div_le_self _ _
    rw [e, fit64_ok (by omega) (by omega), M.bind_ok, div64, if_neg (by omega), e1]
    generalize (s - 1) / b = k at *
    rw [fit64_ok (by omega) (by omega), M.bind_ok, fit64_ok (by omega) (by omega), M.bind_ok]

theorem leftoverLoop64_nat : ∀ {S B : List Nat}, Pos S → B.length = S.length → (∀ s ∈ S, s < 2 ^ 63) →
    leftoverLoop64 (toInts S) (toInts B) (toInts (gridOf S B)) = .ok (leftoverLoop (toInts S) (toInts B) (toInts (gridOf S B)))
  | [], _, _, _, _ => by simp [leftoverLoop64, leftoverLoop]
  | _ :: _, [], _, h, _ => by simp at h
  | s :: S, b :: B, hS, hl, h => by
    simp only [Pos_cons, List.length_cons, Nat.add_right_cancel_iff] at hS hl
    have hs := h s (by simp)
    have ih := leftoverLoop64_nat hS.2 hl fun s' h' => h s' (List.mem_cons_of_mem _ h')
    rw [gridOf_cons, toInts_cons, toInts_cons, toInts_cons, leftoverLoop64, leftoverLoop, ih]
    have h2 : (s - 1) / b ≤ s - 1 := Nat.div_le_self _ _
    have h1 : (s - 1) / b * b ≤ s - 1 := Nat.div_mul_le_self _ _
    have e2 : (((s - 1) / b : Nat) : Int) * (b : Int) = (((s - 1) / b * b : Nat) : Int) := by simp
    have e : ((((s - 1) / b + 1 : Nat)) : Int) - 1 = (((s - 1) / b : Nat) : Int) := by
      generalize (s - 1) / b = k at *
      omega
    rw [e]
    generalize (s - 1) / b = k at *
    rw [fit64_ok (by omega) (by omega), M.bind_ok, e2]
    generalize k * b = l at *
    have e3 : (s : Int) - (l : Int) = ((s - l : Nat) : Int) := by omega
    rw [fit64_ok (by omega) (by omega), M.bind_ok, e3, fit64_ok (by omega) (by omega), M.bind_ok]
    rfl

theorem gridOf_le : ∀ {S B : List Nat}, Pos S → B.length = S.length → List.Forall₂ (fun g s => g ≤ s) (gridOf S B) S
  | [], B, _, _ => by
    cases B <;> exact .nil
  | _ :: _, [], _, h => by simp at h
  | s :: S, b :: B, hS, hl => by
    simp only [Pos_cons, List.length_cons, Nat.add_right_cancel_iff] at hS hl
    rw [gridOf_cons]
    have h2 : (s - 1) / b ≤ s - 1 := Nat.div_le_self _ _
    refine .cons ?_ (gridOf_le hS.2 hl)
    generalize (s - 1) / b = k at *
    omega

theorem tensor_make64_nat {S B : List Nat} (hS : Pos S) (hB : Pos B) (hl : B.length = S.length) (h : S.prod < 2 ^ 63) : TensorTraits.make64 (toInts S) (toInts B) = .ok (natTensorTraits S B) := by
  have hs : ∀ s ∈ S, s < 2 ^ 63 := fun s hs => Nat.lt_of_le_of_lt (hS.le_prod hs) h
  have hg : (gridOf S B).prod < 2 ^ 63 := Nat.lt_of_le_of_lt (prod_le_of_forall (gridOf_le hS hl)) h
  unfold TensorTraits.make64
  rw [make64_nat hS h, make_nat hS, M.bind_ok, throwIf_neg (by simp [hl]), M.bind_ok, checkPositive_ok_iff.2 (toInts_pos.2 hB), M.bind_ok, gridShapeLoop64_nat hS hB hl hs,
    gridShapeLoop_nat hS hB hl, M.bind_ok, make64_nat (gridOf_pos S B) hg, make_nat (gridOf_pos S B), M.bind_ok]
  change leftoverLoop64 (toInts S) (toInts B) (toInts (gridOf S B)) >>= _ = _
  rw [leftoverLoop64_nat hS hl hs, M.bind_ok, leftoverLoop_nat hS hl]

theorem tileShapeLoop64_nat : ∀ {G : List Nat} {idx bs ls : List Int}, (∀ g ∈ G, g < 2 ^ 63) → tileShapeLoop64 idx (toInts G) bs ls = tileShapeLoop idx (toInts G) bs ls
  | [], idx, _, _, _ => by cases idx <;> rfl
  | _ :: _, [], _, _, _ => rfl
  | _ :: _, _ :: _, [], _, _ => rfl
  | _ :: _, _ :: _, _ :: _, [], _ => rfl
  | g :: G, i :: idx, b :: bs, l :: ls, h => by
    have hg := h g (by simp)
    rw [toInts_cons, tileShapeLoop64, tileShapeLoop]
    by_cases c : i < 0 ∨ i ≥ g
    · rw [if_pos c, if_pos c]
    · rw [if_neg c, if_neg c, fit64_ok (by omega) (by omega), M.bind_ok, tileShapeLoop64_nat fun g' h' => h g' (List.mem_cons_of_mem _ h')]

end NNTile
