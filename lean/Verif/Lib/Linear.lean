import Verif.Spec.Linear
import Verif.Lib.Layer
import Verif.Lib.Grad
import Verif.Props.C13
import Verif.Props.C15
import Verif.Props.C17
/-!
# Lemmas for the linear layer
-/
namespace NNTile
open Finset

@[simp] theorem opCat_no (P Q R : List Nat) : opCat .noTrans P Q R = P ++ Q ++ R := rfl
@[simp] theorem opCat_tr (P Q R : List Nat) : opCat .trans P Q R = Q ++ P ++ R := rfl

/-- `gemm` without batch dimensions with an explicit result. -/
theorem gemm_nobatch {A B C : Tensor} {tA tB : TransOp} {nd : Int} {s : Store ℝ} (hA : A.Ready s) (hB : B.Ready s) (hC : C.Ready s)
    (idA : A.id ≠ C.id) (idB : B.id ≠ C.id) {M K N : List Nat} (hnd : nd = K.length) (sA : A.shape = opCat tA M K [])
    (sB : B.shape = opCat tB K N []) (sC : C.shape = M ++ N)
    (hbt : ∃ M' K' N' : List Nat, K'.length = K.length ∧ A.basetile = opCat tA M' K' [] ∧ B.basetile = opCat tB K' N' [] ∧ C.basetile = M' ++ N')
    (alpha beta : ℝ) (redux : Bool) (x y z : List Nat → ℝ) (hx : A.Holds s x) (hy : B.Holds s y) (hz : beta ≠ 0 → C.Holds s z) :
    Computes (gemmAsync alpha tA A tB B beta C nd 0 redux) s C (fun Z =>
      alpha * ∑ k ∈ box K, x (opCat tA (Z.take M.length) k []) * y (opCat tB k (Z.drop M.length) []) + beta * z Z) := by
  obtain ⟨M', K', N', hK, bA, bB, bC⟩ := hbt
  subst hnd
  obtain ⟨v, h, hv⟩ := C17_gemm (tA := tA) (tB := tB) (nd := K.length) (bt := 0) hA hB hC idA idB (M := M) (K := K) (N := N) (R := [])
    ⟨rfl, rfl, sA, sB, by simpa using sC⟩ ⟨M', K', N', [], hK, rfl, bA, bB, by simpa using bC⟩ alpha beta redux x y z hx hy hz
  refine h.congr fun Z hZ => ?_
  rw [sC] at hZ
  have hl : (Z.take M.length).length = M.length := by
    have := hZ.length; simp only [List.length_append] at this
    simp only [List.length_take]; omega
  have hZ' : InBox (M ++ N) (Z.take M.length ++ Z.drop M.length) := by rwa [List.take_append_drop]
  rw [InBox_append hl] at hZ'
  have := hv (Z.take M.length) (Z.drop M.length) [] hZ'.1 hZ'.2 trivial
  simpa [gemmVal, List.take_append_drop] using this

/-- The bias of a linear layer is a fiber of its output. -/
theorem bias_fiber_last {b y : Tensor} {M M' : List Nat} {n n' : Nat} (hy : y.shape = M ++ [n]) (ty : y.basetile = M' ++ [n']) (hl : M'.length = M.length)
    (hb : b.shape = [n]) (tb : b.basetile = [n']) : b.FiberOf y M.length 0 := by
  refine ⟨by simp [hy], ?_, ?_⟩
  · simp [hb, hy, List.getD_eq_getElem?_getD]
  · simp [tb, ty, hy, List.getD_eq_getElem?_getD, hl]

theorem bias_fiber_first {b y : Tensor} {N N' : List Nat} {m m' : Nat} (hy : y.shape = [m] ++ N) (ty : y.basetile = [m'] ++ N') (hl : N'.length = N.length)
    (hb : b.shape = [m]) (tb : b.basetile = [m']) : b.FiberOf y 0 0 := by
  refine ⟨by simp [hy], ?_, ?_⟩
  · simp [hb, hy]
  · simp [tb, ty, hy, hl]

/-- The matrix dimensions of the operands of a generated layer: rows, contracted dimensions, columns. -/
def genM (side : Side) (tx : TransOp) (n : Nat) (X S : List Nat) : List Nat :=
  match side, tx with
  | .L, .noTrans => exceptLast n X
  | .L, .trans => X.drop n
  | .R, _ => S
def genK (side : Side) (tx : TransOp) (n : Nat) (X : List Nat) : List Nat :=
  match side, tx with
  | .L, .noTrans => lastOf n X
  | .L, .trans => X.take n
  | .R, .noTrans => X.take n
  | .R, .trans => lastOf n X
def genN (side : Side) (tx : TransOp) (n : Nat) (X S : List Nat) : List Nat :=
  match side, tx with
  | .L, _ => S
  | .R, .noTrans => X.drop n
  | .R, .trans => exceptLast n X

theorem genK_length {side : Side} {tx : TransOp} {n : Nat} {X : List Nat} (h : n ≤ X.length) : (genK side tx n X).length = n := by
  cases side <;> cases tx <;> simp [genK, lastOf] <;> omega

theorem gen_dims (side : Side) (tx : TransOp) (n : Nat) (X S : List Nat) :
    LinearDims side tx X (linearW side tx n X S) (linearY side tx n X S) (genM side tx n X S) (genK side tx n X) (genN side tx n X S) := by
  cases side <;> cases tx <;> simp [LinearDims, linearW, linearY, genM, genN, genK, lastOf, exceptLast]

theorem gen_bias (side : Side) (tx : TransOp) (n : Nat) (X S : List Nat) :
    side.biasDim (genM side tx n X S) (genN side tx n X S) = S := by
  cases side <;> cases tx <;> rfl

end NNTile
