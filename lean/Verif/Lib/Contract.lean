import Verif.Lib.Grad
import Verif.Lib.Linear
import Verif.Lib.RealFP
import Verif.Props.C18
import Mathlib.Tactic.Conv
/-!
# Contractions: adjoints, and `gemm` with an explicit result
-/
namespace NNTile
open Finset

theorem sum_box1 (a : Nat) (F : List Nat → ℝ) : ∑ I ∈ box [a], F I = ∑ i ∈ range a, F [i] := by
  rw [show ([a] : List Nat) = a :: [] from rfl, box, sum_image, sum_product]
  · simp [box]
  · rintro ⟨i, I⟩ _ ⟨j, J⟩ _ e
    simpa using e

theorem sum_box_cons (a : Nat) (S : List Nat) (F : List Nat → ℝ) : ∑ I ∈ box (a :: S), F I = ∑ i ∈ range a, ∑ I ∈ box S, F (i :: I) := by
  have := sum_box_append [a] S F
  rw [List.cons_append, List.nil_append] at this
  rw [this, sum_box1]
  rfl

theorem sum_box_nil (F : List Nat → ℝ) : ∑ I ∈ box [], F I = F [] := by simp [box]

theorem sum_box2 (a b : Nat) (F : List Nat → ℝ) : ∑ I ∈ box [a, b], F I = ∑ i ∈ range a, ∑ j ∈ range b, F [i, j] := by
  simp only [sum_box_cons, sum_box_nil]

theorem mem_box_cons {a : Nat} {S I : List Nat} (h : I ∈ box (a :: S)) : ∃ i J, i < a ∧ J ∈ box S ∧ I = i :: J := by
  rw [mem_box] at h
  cases I with
  | nil => simp [InBox] at h
  | cons i J => exact ⟨i, J, h.1, mem_box.2 h.2, rfl⟩

theorem mem_box_nil {I : List Nat} (h : I ∈ box []) : I = [] := by
  rw [mem_box] at h
  cases I with
  | nil => rfl
  | cons i J => simp [InBox] at h

theorem mem_box1 {a : Nat} {I : List Nat} (h : I ∈ box [a]) : ∃ i, i < a ∧ I = [i] := by
  obtain ⟨i, J, hi, hJ, rfl⟩ := mem_box_cons h
  exact ⟨i, hi, by rw [mem_box_nil hJ]⟩
theorem mem_box2 {a b : Nat} {I : List Nat} (h : I ∈ box [a, b]) : ∃ i j, i < a ∧ j < b ∧ I = [i, j] := by
  obtain ⟨i, J, hi, hJ, rfl⟩ := mem_box_cons h
  obtain ⟨j, hj, rfl⟩ := mem_box1 hJ
  exact ⟨i, j, hi, hj, rfl⟩
theorem mem_box3 {a b c : Nat} {I : List Nat} (h : I ∈ box [a, b, c]) : ∃ i j k, i < a ∧ j < b ∧ k < c ∧ I = [i, j, k] := by
  obtain ⟨i, J, hi, hJ, rfl⟩ := mem_box_cons h
  obtain ⟨j, k, hj, hk, rfl⟩ := mem_box2 hJ
  exact ⟨i, j, k, hi, hj, hk, rfl⟩
theorem mem_box4 {a b c d : Nat} {I : List Nat} (h : I ∈ box [a, b, c, d]) : ∃ i j k l, i < a ∧ j < b ∧ k < c ∧ l < d ∧ I = [i, j, k, l] := by
  obtain ⟨i, J, hi, hJ, rfl⟩ := mem_box_cons h
  obtain ⟨j, k, l, hj, hk, hl, rfl⟩ := mem_box3 hJ
  exact ⟨i, j, k, l, hi, hj, hk, hl, rfl⟩

theorem sum_opCat (t : TransOp) (P Q R : List Nat) (F : List Nat → ℝ) :
    ∑ I ∈ box (opCat t P Q R), F I = ∑ p ∈ box P, ∑ q ∈ box Q, ∑ r ∈ box R, F (opCat t p q r) := by
  cases t with
  | noTrans => simp only [opCat_no, sum_box_append]
  | trans =>
    simp only [opCat_tr, sum_box_append]
    exact sum_comm

/-- The adjoint of a contraction with respect to the first factor. -/
theorem contract_adjoint_left {M K N R : List Nat} (tA tB : TransOp) (alpha : ℝ) {dz z' x' y gx : List Nat → ℝ}
    (hz : ∀ I ∈ box M, ∀ J ∈ box N, ∀ b ∈ box R, z' (I ++ J ++ b) = alpha * ∑ k ∈ box K, x' (opCat tA I k b) * y (opCat tB k J b))
    (hg : ∀ I ∈ box M, ∀ k ∈ box K, ∀ b ∈ box R, gx (opCat tA I k b) = alpha * ∑ J ∈ box N, dz (I ++ J ++ b) * y (opCat tB k J b)) :
    ∑ Z ∈ box (M ++ N ++ R), dz Z * z' Z = ∑ X ∈ box (opCat tA M K R), gx X * x' X := by
  rw [sum_opCat, sum_box_append, sum_box_append]
  refine sum_congr rfl fun I hI => ?_
  have e1 : ∀ J ∈ box N, ∑ b ∈ box R, dz (I ++ J ++ b) * z' (I ++ J ++ b) =
      ∑ b ∈ box R, ∑ k ∈ box K, alpha * (dz (I ++ J ++ b) * y (opCat tB k J b)) * x' (opCat tA I k b) := by
    intro J hJ
    refine sum_congr rfl fun b hb => ?_
    rw [hz I hI J hJ b hb, mul_left_comm, mul_sum, mul_sum]
    exact sum_congr rfl fun k _ => by ring
  have e2 : ∀ k ∈ box K, ∑ b ∈ box R, gx (opCat tA I k b) * x' (opCat tA I k b) =
      ∑ b ∈ box R, ∑ J ∈ box N, alpha * (dz (I ++ J ++ b) * y (opCat tB k J b)) * x' (opCat tA I k b) := by
    intro k hk
    refine sum_congr rfl fun b hb => ?_
    rw [hg I hI k hk b hb, mul_sum, sum_mul]
  rw [sum_congr rfl e1, sum_congr rfl e2, sum_comm]
  conv_rhs => rw [sum_comm]
  refine sum_congr rfl fun b _ => ?_
  rw [sum_comm]

/-- The adjoint of a contraction with respect to the second factor. -/
theorem contract_adjoint_right {M K N R : List Nat} (tA tB : TransOp) (alpha : ℝ) {dz z' x y' gy : List Nat → ℝ}
    (hz : ∀ I ∈ box M, ∀ J ∈ box N, ∀ b ∈ box R, z' (I ++ J ++ b) = alpha * ∑ k ∈ box K, x (opCat tA I k b) * y' (opCat tB k J b))
    (hg : ∀ k ∈ box K, ∀ J ∈ box N, ∀ b ∈ box R, gy (opCat tB k J b) = alpha * ∑ I ∈ box M, x (opCat tA I k b) * dz (I ++ J ++ b)) :
    ∑ Z ∈ box (M ++ N ++ R), dz Z * z' Z = ∑ Y ∈ box (opCat tB K N R), gy Y * y' Y := by
  rw [sum_opCat, sum_box_append, sum_box_append, sum_comm]
  conv_rhs => rw [sum_comm]
  refine sum_congr rfl fun J hJ => ?_
  have e1 : ∀ I ∈ box M, ∑ b ∈ box R, dz (I ++ J ++ b) * z' (I ++ J ++ b) =
      ∑ b ∈ box R, ∑ k ∈ box K, alpha * (x (opCat tA I k b) * dz (I ++ J ++ b)) * y' (opCat tB k J b) := by
    intro I hI
    refine sum_congr rfl fun b hb => ?_
    rw [hz I hI J hJ b hb, mul_left_comm, mul_sum, mul_sum]
    exact sum_congr rfl fun k _ => by ring
  have e2 : ∀ k ∈ box K, ∑ b ∈ box R, gy (opCat tB k J b) * y' (opCat tB k J b) =
      ∑ b ∈ box R, ∑ I ∈ box M, alpha * (x (opCat tA I k b) * dz (I ++ J ++ b)) * y' (opCat tB k J b) := by
    intro k hk
    refine sum_congr rfl fun b hb => ?_
    rw [hg k hk J hJ b hb, mul_sum, sum_mul]
  rw [sum_congr rfl e1, sum_congr rfl e2, sum_comm]
  conv_rhs => rw [sum_comm]
  refine sum_congr rfl fun b _ => ?_
  rw [sum_comm]

/-- Sums over a transposed tensor. -/
theorem sum_box_swap (P Q : List Nat) (F G : List Nat → ℝ) (h : ∀ I ∈ box P, ∀ J ∈ box Q, F (I ++ J) = G (J ++ I)) :
    ∑ X ∈ box (P ++ Q), F X = ∑ X ∈ box (Q ++ P), G X := by
  rw [sum_box_append, sum_box_append, sum_comm]
  exact sum_congr rfl fun J hJ => sum_congr rfl fun I hI => h I hI J hJ

/-- The adjoint of the broadcast along all but some dimensions. -/
theorem fiber_adjoint {S T : List Nat} {φ : List Nat → List Nat} (hφ : ∀ J ∈ box S, φ J ∈ box T) (dz b' : List Nat → ℝ) :
    ∑ J ∈ box S, dz J * b' (φ J) = ∑ I ∈ box T, (∑ J ∈ (box S).filter (fun J => φ J = I), dz J) * b' I := by
  rw [← sum_fiberwise_of_maps_to hφ]
  refine sum_congr rfl fun I _ => ?_
  rw [sum_mul]
  refine sum_congr rfl fun J hJ => ?_
  rw [(mem_filter.1 hJ).2]

/-- `gemm` with an explicit result. -/
theorem gemm_computes {A B C : Tensor} {tA tB : TransOp} {nd bt : Nat} {s : Store ℝ} (hA : A.Ready s) (hB : B.Ready s) (hC : C.Ready s)
    (idA : A.id ≠ C.id) (idB : B.id ≠ C.id) {M K N R : List Nat} (hsh : GemmDims tA tB nd bt A.shape B.shape C.shape M K N R)
    (hbt : ∃ M' K' N' R', GemmDims tA tB nd bt A.basetile B.basetile C.basetile M' K' N' R')
    (alpha beta : ℝ) (redux : Bool) {x y : List Nat → ℝ} (z : List Nat → ℝ) (hx : A.Holds s x) (hy : B.Holds s y) (hz : beta ≠ 0 → C.Holds s z) {F : List Nat → ℝ}
    (hF : ∀ I ∈ box M, ∀ J ∈ box N, ∀ b ∈ box R, F (I ++ J ++ b) = alpha * (∑ k ∈ box K, x (opCat tA I k b) * y (opCat tB k J b)) + beta * z (I ++ J ++ b)) :
    Computes (gemmAsync alpha tA A tB B beta C nd bt redux) s C F := by
  obtain ⟨v, h, hv⟩ := C17_gemm hA hB hC idA idB hsh hbt alpha beta redux x y z hx hy hz
  refine h.congr fun Z hZ => ?_
  rw [hsh.2.2.2.2] at hZ
  obtain ⟨IJ, b, rfl, hIJ, hb⟩ := hZ.exists_split
  obtain ⟨I, J, rfl, hI, hJ⟩ := hIJ.exists_split
  rw [hv I J b hI hJ hb, hF I (mem_box.2 hI) J (mem_box.2 hJ) b (mem_box.2 hb)]
  rfl

/-- `transpose` with an explicit result. -/
theorem transpose_computes {src dst : Tensor} {nd : Nat} {s : Store ℝ} (hs : src.Ready s) (hd : dst.Ready s) (hid : src.id ≠ dst.id)
    (h : src.TransposeOf dst nd) {x : List Nat → ℝ} (hx : src.Holds s x) {F : List Nat → ℝ}
    (hF : ∀ I ∈ box (src.shape.take nd), ∀ J ∈ box (src.shape.drop nd), F (J ++ I) = x (I ++ J)) :
    Computes (transposeAsync 1 src dst nd) s dst F := by
  obtain ⟨v, h', hv⟩ := C18_transpose hs hd hid h 1 x hx
  refine h'.congr fun Z hZ => ?_
  rw [h.shape] at hZ
  obtain ⟨J, I, rfl, hJ, hI⟩ := hZ.exists_split
  rw [hv I J hI hJ, hF I (mem_box.2 hI) J (mem_box.2 hJ), one_mul]

end NNTile
