import Verif.Spec.Layer
import Verif.Lib.Box
import Verif.Lib.Index
import Mathlib.Analysis.Calculus.Deriv.Add
import Mathlib.Analysis.Calculus.Deriv.Mul
import Mathlib.Algebra.BigOperators.Ring.Finset
import Mathlib.Tactic.Ring
/-!
# Gradients
-/
namespace NNTile
open Finset

theorem box_append (S T : List Nat) : box (S ++ T) = (box S ×ˢ box T).image (fun p => p.1 ++ p.2) := by
  induction S with
  | nil => ext I; simp [box]
  | cons a S ih =>
    ext I
    simp only [List.cons_append, box, ih, mem_image, mem_product, Prod.exists]
    constructor
    · rintro ⟨i, J, ⟨hi, I, K, ⟨hI, hK⟩, rfl⟩, rfl⟩
      exact ⟨i :: I, K, ⟨⟨i, I, ⟨hi, hI⟩, rfl⟩, hK⟩, rfl⟩
    · rintro ⟨I', K, ⟨⟨i, I, ⟨hi, hI⟩, rfl⟩, hK⟩, rfl⟩
      exact ⟨i, I ++ K, ⟨hi, I, K, ⟨hI, hK⟩, rfl⟩, rfl⟩

theorem box_length {S I : List Nat} (h : I ∈ box S) : I.length = S.length := (mem_box.1 h).length

theorem sum_box_append {β : Type _} [AddCommMonoid β] (S T : List Nat) (F : List Nat → β) :
    ∑ I ∈ box (S ++ T), F I = ∑ I ∈ box S, ∑ J ∈ box T, F (I ++ J) := by
  rw [box_append, sum_image, sum_product]
  rintro ⟨I, J⟩ h ⟨I', J'⟩ h' e
  simp only [coe_product, Set.mem_prod, mem_coe] at h h'
  obtain ⟨rfl, rfl⟩ := List.append_inj e (by simp only [box_length h.1, box_length h'.1])
  rfl

/-- A map which is affine along every line has the gradient given by its linear part. -/
theorem isGrad_of_affine {Sx Sy : List Nat} {F : (List Nat → ℝ) → List Nat → ℝ} {x dy g : List Nat → ℝ} (D : (List Nat → ℝ) → List Nat → ℝ)
    (hF : ∀ h t I, I ∈ box Sy → F (fun J => x J + t * h J) I = F x I + t * D h I)
    (hg : ∀ h, ∑ I ∈ box Sy, dy I * D h I = ∑ J ∈ box Sx, g J * h J) : IsGrad Sx Sy F x dy g := by
  intro h
  have e : (fun t : ℝ => ∑ I ∈ box Sy, dy I * F (fun J => x J + t * h J) I) =
      fun t => ∑ I ∈ box Sy, dy I * F x I + t * ∑ J ∈ box Sx, g J * h J := by
    funext t
    rw [← hg h, mul_sum, ← sum_add_distrib]
    refine sum_congr rfl fun I hI => ?_
    rw [hF h t I hI]; ring
  rw [e]
  have := ((hasDerivAt_id (0 : ℝ)).mul_const (∑ J ∈ box Sx, g J * h J)).const_add (∑ I ∈ box Sy, dy I * F x I)
  simpa using this

end NNTile
