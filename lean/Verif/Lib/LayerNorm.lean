import Verif.Spec.LayerNorm
import Verif.Lib.Layer
import Verif.Lib.Grad
import Verif.Lib.Axis
import Mathlib.Analysis.SpecialFunctions.Sqrt
import Mathlib.Analysis.Calculus.Deriv.Pow
import Mathlib.Analysis.Calculus.Deriv.Inv
import Mathlib.Tactic.FieldSimp
import Mathlib.Tactic.Positivity
/-!
# Derivatives of the layer normalization
-/
namespace NNTile
open Finset

theorem sum_box_insert {β : Type _} [AddCommMonoid β] {S : List Nat} {a : Nat} (ha : a < S.length) (F : List Nat → β) :
    ∑ I ∈ box S, F I = ∑ J ∈ box (S.eraseIdx a), ∑ k ∈ range (S.getD a 0), F (J.insertIdx a k) := by
  rw [← sum_product']
  refine sum_nbij' (fun I => (I.eraseIdx a, I.getD a 0)) (fun p => p.1.insertIdx a p.2) ?_ ?_ ?_ ?_ ?_
  · intro I hI
    rw [mem_box] at hI
    simp only [mem_product, mem_box, mem_range]
    exact ⟨hI.erase a, hI.getD ha⟩
  · rintro ⟨J, k⟩ h
    simp only [mem_product, mem_box, mem_range] at h
    rw [mem_box]
    exact h.1.insert ha h.2
  · intro I hI
    exact insert_erase (by rw [(mem_box.1 hI).length]; exact ha)
  · rintro ⟨J, k⟩ h
    simp only [mem_product, mem_box, mem_range] at h
    have hl := h.1.length
    rw [List.length_eraseIdx_of_lt ha] at hl
    simp only [erase_insert]
    rw [getD_insert (by omega)]
  · intro I hI
    simp only [insert_erase (show a < I.length by rw [(mem_box.1 hI).length]; exact ha)]

/-- Derivative of the normalization of one slice of `l` elements. -/
theorem slice_norm_deriv {l : Nat} (hl : 0 < l) {eps : ℝ} (he : 0 < eps) (x d h : Nat → ℝ) {m r : ℝ} (hm : m = (∑ k ∈ range l, x k) / l)
    (hr : r = Real.sqrt ((∑ k ∈ range l, (x k - m) ^ 2) / l + eps)) :
    HasDerivAt (fun t : ℝ => ∑ k ∈ range l, d k * ((x k + t * h k - (∑ j ∈ range l, (x j + t * h j)) / l) *
        (1 / Real.sqrt ((∑ i ∈ range l, (x i + t * h i - (∑ j ∈ range l, (x j + t * h j)) / l) ^ 2) / l + eps))))
      (∑ k ∈ range l, (1 / r) * (d k - (∑ j ∈ range l, d j) / l - (x k - m) * (1 / r) * ((∑ j ∈ range l, d j * ((x j - m) * (1 / r))) / l)) * h k) 0 := by
  have hl' : (l : ℝ) ≠ 0 := by positivity
  set c := (∑ j ∈ range l, h j) / l with hc
  have e : ∀ (t : ℝ) k, x k + t * h k - (∑ j ∈ range l, (x j + t * h j)) / l = (x k - m) + t * (h k - c) := by
    intro t k
    rw [sum_add_distrib, ← mul_sum, hm, hc]; field_simp; ring
  simp only [e]
  have hu : ∀ k, HasDerivAt (fun t : ℝ => (x k - m) + t * (h k - c)) (h k - c) 0 := by
    intro k
    simpa using ((hasDerivAt_id (0 : ℝ)).mul_const (h k - c)).const_add (x k - m)
  have hv : HasDerivAt (fun t : ℝ => (∑ k ∈ range l, ((x k - m) + t * (h k - c)) ^ 2) / l + eps)
      ((∑ k ∈ range l, 2 * (x k - m) * (h k - c)) / l) 0 := by
    refine HasDerivAt.add_const eps (HasDerivAt.div_const ?_ (l : ℝ))
    refine HasDerivAt.fun_sum fun k _ => ?_
    refine ((hu k).fun_pow 2).congr_deriv ?_
    simp
  have hpos : 0 < (∑ k ∈ range l, (x k - m) ^ 2) / (l : ℝ) + eps := by positivity
  have hr0 : 0 < r := by rw [hr]; exact Real.sqrt_pos.2 hpos
  have hs := (hv.sqrt (by simpa using hpos.ne')).fun_inv (by simpa [← hr] using hr0.ne')
  have hfin : HasDerivAt (fun t : ℝ => ∑ k ∈ range l, d k * (((x k - m) + t * (h k - c)) *
      (1 / Real.sqrt ((∑ i ∈ range l, ((x i - m) + t * (h i - c)) ^ 2) / l + eps)))) _ 0 :=
    HasDerivAt.fun_sum fun k _ => by
      simp only [one_div]
      exact ((hu k).fun_mul hs).const_mul (d k)
  refine hfin.congr_deriv ?_
  simp only [zero_mul, add_zero, ← hr]
  have hu0 : ∑ k ∈ range l, (x k - m) = 0 := by
    rw [sum_sub_distrib, sum_const, card_range, nsmul_eq_mul, hm]; field_simp; ring
  have hV : ∑ k ∈ range l, 2 * (x k - m) * (h k - c) = 2 * ∑ k ∈ range l, (x k - m) * h k := by
    have : ∀ k, 2 * (x k - m) * (h k - c) = 2 * ((x k - m) * h k) - 2 * c * (x k - m) := fun k => by ring
    simp only [this]
    rw [sum_sub_distrib, ← mul_sum, ← mul_sum, hu0]; ring
  rw [hV]
  set A := ∑ k ∈ range l, (x k - m) * h k with hA
  set D := ∑ j ∈ range l, d j with hD
  set E := ∑ j ∈ range l, d j * (x j - m) with hE
  have hE' : ∑ j ∈ range l, d j * ((x j - m) * (1 / r)) = E * (1 / r) := by
    rw [hE, sum_mul]; exact sum_congr rfl fun j _ => by ring
  rw [hE']
  trans ∑ k ∈ range l, (r⁻¹ * (d k * h k) - r⁻¹ * c * d k - (A / l / r ^ 3) * (d k * (x k - m)))
  · exact sum_congr rfl fun k _ => by field_simp; ring
  trans ∑ k ∈ range l, (r⁻¹ * (d k * h k) - (r⁻¹ * D / l) * h k - (E / l / r ^ 3) * ((x k - m) * h k))
  · simp only [sum_sub_distrib, ← mul_sum, ← hA, ← hD, ← hE, hc]
    field_simp
  · exact sum_congr rfl fun k _ => by field_simp

/-- The gradient over the input. -/
theorem layerNorm_grad_x {S : List Nat} {a : Nat} (ha : a < S.length) (hS : Pos S) {eps : ℝ} (he : 0 < eps) (gamma beta x dy : List Nat → ℝ) :
    IsGrad S S (fun x => lnOut a (S.getD a 0) eps gamma beta x) x dy (fun I =>
      lnInv a (S.getD a 0) eps x (I.eraseIdx a) * (gamma [I.getD a 0] * dy I
        - (∑ k ∈ range (S.getD a 0), gamma [k] * dy ((I.eraseIdx a).insertIdx a k)) / (S.getD a 0 : ℕ)
        - lnHat a (S.getD a 0) eps x I *
          ((∑ k ∈ range (S.getD a 0), gamma [k] * dy ((I.eraseIdx a).insertIdx a k) * lnHat a (S.getD a 0) eps x ((I.eraseIdx a).insertIdx a k)) /
            (S.getD a 0 : ℕ)))) := by
  intro h
  set l := S.getD a 0 with hl
  have hl0 : 0 < l := hS.getD ha
  simp only [sum_box_insert ha, ← hl]
  refine HasDerivAt.fun_sum fun J hJ => ?_
  have hJl : a ≤ J.length := by
    have := box_length hJ
    rw [List.length_eraseIdx_of_lt ha] at this
    omega
  have key := slice_norm_deriv hl0 he (fun k => x (J.insertIdx a k)) (fun k => gamma [k] * dy (J.insertIdx a k)) (fun k => h (J.insertIdx a k)) rfl rfl
  have hb : HasDerivAt (fun _ : ℝ => ∑ k ∈ range l, dy (J.insertIdx a k) * beta [k]) 0 0 := hasDerivAt_const _ _
  refine ((key.fun_add hb).congr_of_eventuallyEq (Filter.Eventually.of_forall fun t => ?_)).congr_deriv ?_
  · simp only
    rw [← sum_add_distrib]
    refine sum_congr rfl fun k _ => ?_
    simp only [lnOut, lnHat, lnInv, lnVar, lnMean, erase_insert, getD_insert hJl]
    ring
  · rw [add_zero]
    refine sum_congr rfl fun k _ => ?_
    simp only [lnHat, lnInv, lnVar, lnMean, erase_insert, getD_insert hJl]

/-- Scalar product with a tensor which depends only on the dimension `a`. -/
theorem sum_box_fiber {S : List Nat} {a : Nat} (ha : a < S.length) (F h : List Nat → ℝ) :
    ∑ I ∈ box S, F I * h [I.getD a 0] = ∑ J ∈ box [S.getD a 0], (∑ I ∈ (box S).filter (fun I => [I.getD a 0] = J), F I) * h J := by
  have hm : ∀ I ∈ box S, [I.getD a 0] ∈ box [S.getD a 0] := by
    intro I hI
    rw [mem_box] at *
    simpa using hI.getD ha
  rw [← sum_fiberwise_of_maps_to hm]
  refine sum_congr rfl fun J _ => ?_
  rw [sum_mul]
  refine sum_congr rfl fun I hI => ?_
  rw [mem_filter] at hI
  rw [hI.2]

theorem layerNorm_grad_beta {S : List Nat} {a : Nat} (ha : a < S.length) (l : Nat) (eps : ℝ) (gamma beta x dy : List Nat → ℝ) :
    IsGrad [S.getD a 0] S (fun beta => lnOut a l eps gamma beta x) beta dy (fun J => ∑ I ∈ (box S).filter (fun I => [I.getD a 0] = J), dy I) := by
  refine isGrad_of_affine (fun h I => h [I.getD a 0]) (fun h t I _ => ?_) (fun h => ?_)
  · simp only [lnOut]; ring
  · exact sum_box_fiber ha dy h

theorem layerNorm_grad_gamma {S : List Nat} {a : Nat} (ha : a < S.length) (l : Nat) (eps : ℝ) (gamma beta x dy : List Nat → ℝ) :
    IsGrad [S.getD a 0] S (fun gamma => lnOut a l eps gamma beta x) gamma dy
      (fun J => ∑ I ∈ (box S).filter (fun I => [I.getD a 0] = J), dy I * lnHat a l eps x I) := by
  refine isGrad_of_affine (fun h I => lnHat a l eps x I * h [I.getD a 0]) (fun h t I _ => ?_) (fun h => ?_)
  · simp only [lnOut]; ring
  · rw [← sum_box_fiber ha]
    exact sum_congr rfl fun I _ => by ring

/-- Numbering of the tensors. -/
def LayerNorm.ft (n : LayerNorm ℝ) : Fin 7 → Tensor := n.forwardTensors.get
def LayerNorm.bt (n : LayerNorm ℝ) : Fin 9 → Tensor := n.backwardTensors.get

end NNTile
