import Verif.Lib.NetLayers
import Mathlib.Analysis.SpecialFunctions.Sqrt
import Mathlib.Analysis.Calculus.Deriv.Inv
import Mathlib.Analysis.Calculus.Deriv.Pow
import Mathlib.Tactic.Positivity
/-!
# The linear layer and the layer normalization: joint derivatives over all operands
-/
namespace NNTile
open Finset

theorem gradIds_sublist (ins : List Moments) : (ins.flatMap Moments.gradIds).Sublist (ins.flatMap Moments.ids) := by
  induction ins with
  | nil => simp
  | cons m L ih =>
    simp only [List.flatMap_cons]
    exact List.Sublist.append (List.sublist_cons_self _ _) ih

theorem Linear.Fits.dims {l : Linear} {M K N : List Nat} (fit : l.Fits M K N) : l.dimK = K ∧ l.dimM = M.length := by
  have h := fit.shape
  have hn : l.ndim.toNat = K.length := by rw [fit.ndim]; rfl
  unfold Linear.dimK Linear.dimM
  unfold LinearDims at h
  rw [hn]
  cases hs : l.side with
  | L =>
    rw [hs] at h
    obtain ⟨-, h2, h3⟩ := h
    simp [h2, h3]
  | R =>
    rw [hs] at h
    obtain ⟨h2, -, h3⟩ := h
    simp [h2]

theorem linearOut_zero_x (side : Side) (tx : TransOp) (m : Nat) (K : List Nat) (w : List Nat → ℝ) (Z : List Nat) :
    linearOut side tx m K (fun _ => 0) w (fun _ => 0) Z = 0 := by
  cases side <;> simp [linearOut]

theorem linearOut_zero_w (side : Side) (tx : TransOp) (m : Nat) (K : List Nat) (x : List Nat → ℝ) (Z : List Nat) :
    linearOut side tx m K x (fun _ => 0) (fun _ => 0) Z = 0 := by
  cases side <;> simp [linearOut]

/-- Derivative of the output of the linear layer along curves of its operands. -/
theorem linearOut_deriv {side : Side} {tx : TransOp} {M K N : List Nat} {xs ws ys : List Nat} (hd : LinearDims side tx xs ws ys M K N) {X W B : ℝ → List Nat → ℝ}
    {hx hw hb : List Nat → ℝ} (dX : ∀ J ∈ box xs, HasDerivAt (fun t => X t J) (hx J) 0) (dW : ∀ J ∈ box ws, HasDerivAt (fun t => W t J) (hw J) 0)
    (dB : ∀ J ∈ box (side.biasDim M N), HasDerivAt (fun t => B t J) (hb J) 0) {Z : List Nat} (hZ : Z ∈ box ys) :
    HasDerivAt (fun t => linearOut side tx M.length K (X t) (W t) (B t) Z)
      (linearOut side tx M.length K hx (W 0) (fun _ => 0) Z + linearOut side tx M.length K (X 0) hw (fun _ => 0) Z +
        linearOut side tx M.length K (fun _ => 0) (fun _ => 0) hb Z) 0 := by
  have hbox : ∀ P Q : List Nat, ∀ I ∈ box P, ∀ J ∈ box Q, I ++ J ∈ box (P ++ Q) := by
    intro P Q I hI J hJ
    rw [mem_box] at *
    exact hI.append hJ
  have hop : ∀ P Q : List Nat, ∀ I ∈ box P, ∀ J ∈ box Q, opCat tx I J [] ∈ box (opCat tx P Q []) := by
    intro P Q I hI J hJ
    cases tx
    · simpa using hbox P Q I hI J hJ
    · simpa using hbox Q P J hJ I hI
  have hsplit : ∀ P Q : List Nat, Z ∈ box (P ++ Q) → Z.take P.length ∈ box P ∧ Z.drop P.length ∈ box Q := by
    intro P Q h
    rw [mem_box] at h
    have h1 := h.take P.length
    have h2 := h.drop P.length
    simp only [List.take_left, List.drop_left] at h1 h2
    exact ⟨mem_box.2 h1, mem_box.2 h2⟩
  cases side with
  | L =>
    obtain ⟨rfl, rfl, rfl⟩ := hd
    obtain ⟨h1, h2⟩ := hsplit M N hZ
    have := (HasDerivAt.fun_sum (u := box K) fun k hk => (dX _ (hop M K _ h1 k hk)).fun_mul (dW _ (hbox K N k hk _ h2))).fun_add (dB _ h2)
    refine this.congr_deriv ?_
    simp only [linearOut, sum_add_distrib, add_zero, zero_mul, sum_const_zero, zero_add]
  | R =>
    obtain ⟨rfl, rfl, rfl⟩ := hd
    obtain ⟨h1, h2⟩ := hsplit M N hZ
    have := (HasDerivAt.fun_sum (u := box K) fun k hk => (dW _ (hbox M K _ h1 k hk)).fun_mul (dX _ (hop K N k hk _ h2))).fun_add (dB _ h1)
    refine this.congr_deriv ?_
    simp only [linearOut, sum_add_distrib, add_zero, zero_mul, sum_const_zero, zero_add]
    ring

/-! ### Layer normalization -/

/-- Derivative of the normalized input in direction `h`. -/
noncomputable def lnHatD (a l : Nat) (eps : ℝ) (x h : List Nat → ℝ) (I : List Nat) : ℝ :=
  let J := I.eraseIdx a
  let v' := (∑ k ∈ range l, 2 * (x (J.insertIdx a k) - lnMean a l x J) * (h (J.insertIdx a k) - lnMean a l h J)) / l
  (h I - lnMean a l h J) * lnInv a l eps x J +
    (x I - lnMean a l x J) * (-(v' / (2 * Real.sqrt (lnVar a l x J + eps))) / Real.sqrt (lnVar a l x J + eps) ^ 2)

theorem lnHatD_zero (a l : Nat) (eps : ℝ) (x : List Nat → ℝ) (I : List Nat) : lnHatD a l eps x (fun _ => 0) I = 0 := by
  simp [lnHatD, lnMean]

theorem lnHat_deriv {S : List Nat} {a : Nat} (ha : a < S.length) {eps : ℝ} (he : 0 < eps) {X : ℝ → List Nat → ℝ} {h : List Nat → ℝ}
    (dX : ∀ J ∈ box S, HasDerivAt (fun t => X t J) (h J) 0) {I : List Nat} (hI : I ∈ box S) :
    HasDerivAt (fun t => lnHat a (S.getD a 0) eps (X t) I) (lnHatD a (S.getD a 0) eps (X 0) h I) 0 := by
  set l := S.getD a 0 with hl
  set J := I.eraseIdx a with hJ
  have hJb : ∀ k ∈ range l, J.insertIdx a k ∈ box S := by
    intro k hk
    rw [mem_box]
    exact ((mem_box.1 hI).erase a).insert ha (mem_range.1 hk)
  have dm : HasDerivAt (fun t => lnMean a l (X t) J) (lnMean a l h J) 0 :=
    (HasDerivAt.fun_sum (u := range l) fun k hk => dX _ (hJb k hk)).div_const _
  have dv : HasDerivAt (fun t => lnVar a l (X t) J)
      ((∑ k ∈ range l, 2 * (X 0 (J.insertIdx a k) - lnMean a l (X 0) J) * (h (J.insertIdx a k) - lnMean a l h J)) / l) 0 := by
    refine (HasDerivAt.fun_sum (u := range l) fun k hk => ((((dX _ (hJb k hk)).fun_sub dm).fun_pow 2).congr_deriv ?_)).div_const _
    simp
  have hv0 : 0 ≤ lnVar a l (X 0) J := div_nonneg (sum_nonneg fun k _ => sq_nonneg _) (Nat.cast_nonneg _)
  have hpos : lnVar a l (X 0) J + eps ≠ 0 := by positivity
  have hsq : Real.sqrt (lnVar a l (X 0) J + eps) ≠ 0 := by
    rw [Real.sqrt_ne_zero']; positivity
  have ds := (dv.add_const eps).sqrt hpos
  have di := (ds.fun_inv hsq)
  have dh := ((dX I hI).fun_sub dm).fun_mul di
  simp only [lnHat, lnInv, one_div]
  refine dh.congr_deriv ?_
  simp only [lnHatD, lnInv, one_div, ← hJ]

end NNTile
