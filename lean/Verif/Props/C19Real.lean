import Verif.Lib.RealMse
import Verif.Props.C19
/-!
# C19 over the reals: data without masked entries
-/
namespace NNTile
open Finset

/-- `maxsumexp` of real numbers: the first component is the maximum along the axis, the second is the sum of `exp(x - maximum)`. -/
theorem C19_maxsumexp_real {src dst : Tensor} {a : Nat} {s : Store ℝ} (hs : src.Ready s) (hd : dst.Ready s) (hid : src.id ≠ dst.id)
    (h : dst.MseOf src a) (redux : Bool) (x : List Nat → ℝ) (hx : src.Holds s x) (h0 : dst.Holds s (fun _ => 0)) :
    ∃ v : List Nat → ℝ, Computes (maxsumexpAsync src dst a redux) s dst v ∧ ∀ I, InBox (src.shape.eraseIdx a) I →
      (∃ l, l < src.shape.getD a 0 ∧ v (0 :: I) = x (I.insertIdx a l)) ∧ (∀ l, l < src.shape.getD a 0 → x (I.insertIdx a l) ≤ v (0 :: I)) ∧
      v (1 :: I) = ∑ l ∈ range (src.shape.getD a 0), Real.exp (x (I.insertIdx a l) - v (0 :: I)) := by
  obtain ⟨w, hw, hm⟩ := C19_maxsumexp (s := s.map XReal.fin) hs hd hid h redux (fun I => .fin (x I)) (hx.map XReal.fin) (fun I _ => .inr ⟨_, rfl⟩) (h0.map XReal.fin)
  let R : XReal → ℝ := fun y => match y with
    | .fin b => b
    | _ => 0
  have key : ∀ I, InBox (src.shape.eraseIdx a) I → ∃ m : ℝ, w (0 :: I) = .fin m ∧ (∃ l, l < src.shape.getD a 0 ∧ x (I.insertIdx a l) = m) ∧
      (∀ l, l < src.shape.getD a 0 → x (I.insertIdx a l) ≤ m) ∧ w (1 :: I) = .fin (∑ l ∈ range (src.shape.getD a 0), Real.exp (x (I.insertIdx a l) - m)) := by
    intro I hI
    rcases hm I hI with ⟨h1, -⟩ | ⟨m, h1, ⟨l, hl, h2⟩, h3, h4⟩
    · have := h1 0 (hs.1.1.getD h.axis)
      cases this
    · exact ⟨m, h1, ⟨l, hl, by cases h2; rfl⟩, fun l hl => h3 l _ hl rfl, h4⟩
  refine ⟨fun I => R (w I), Computes.of_sim XReal.fin_injective (maxsumexpAsync_sim src dst a redux) hw ?_, ?_⟩
  · intro I hI
    rw [h.shape] at hI
    cases I with
    | nil => simp [InBox] at hI
    | cons e J =>
      obtain ⟨he, hJ⟩ := hI
      obtain ⟨m, k1, -, -, k2⟩ := key J hJ
      have : e = 0 ∨ e = 1 := by omega
      rcases this with rfl | rfl
      · rw [k1]
      · rw [k2]
  · intro I hI
    obtain ⟨m, k1, ⟨l, hl, k3⟩, k4, k2⟩ := key I hI
    simp only [k1, k2, R]
    exact ⟨⟨l, hl, k3.symm⟩, k4, trivial⟩

/-- With it the softmax and the logarithm of the sum of exponentials can be computed without overflow: `sum * exp(max) = Σ exp(x)`, `sum ≥ 1`. -/
theorem C19_real_meaning {n : Nat} {r : Nat → ℝ} {mx sm : ℝ} (h1 : ∃ l, l < n ∧ mx = r l) (h3 : sm = ∑ l ∈ range n, Real.exp (r l - mx)) :
    1 ≤ sm ∧ sm * Real.exp mx = ∑ l ∈ range n, Real.exp (r l) ∧ mx + Real.log sm = Real.log (∑ l ∈ range n, Real.exp (r l)) ∧
      ∀ l, Real.exp (r l - mx) / sm = Real.exp (r l) / ∑ l ∈ range n, Real.exp (r l) := by
  obtain ⟨l0, hl0, e0⟩ := h1
  have p1 : 1 ≤ sm := by
    rw [h3]
    have := single_le_sum (f := fun l => Real.exp (r l - mx)) (fun i _ => (Real.exp_pos _).le) (mem_range.2 hl0)
    simpa [e0] using this
  have p2 : sm * Real.exp mx = ∑ l ∈ range n, Real.exp (r l) := by
    rw [h3, sum_mul]
    exact sum_congr rfl fun l _ => by rw [← Real.exp_add]; congr 1; ring
  have hs : sm ≠ 0 := by linarith
  have he := Real.exp_pos mx
  refine ⟨p1, p2, ?_, fun l => ?_⟩
  · rw [← p2, Real.log_mul hs he.ne', Real.log_exp]; ring
  · rw [← p2, Real.exp_sub, div_div, mul_comm sm]

end NNTile
