import Verif.Lib.Sumnorm
import Verif.Lib.Store
/-!
# C31 — `sumnorm`

Arithmetic is exact, with the special values of IEEE (`Verif/Spec/XReal.lean`), so the theorem includes that no infinity and no NaN arises.
-/
namespace NNTile
open Finset

/-- `sumnorm` writes, for every slice of `src` along `axis`, the sum and the Euclidean norm of the slice, whatever `dst` held before (it need not
even be initialised), for any tiling. -/
theorem C31_sumnorm {src dst : Tensor} {a : Nat} {s : Store XReal} (hs : src.Ready s) (hd : dst.Ready s) (hid : src.id ≠ dst.id)
    (h : dst.MseOf src a) (x : List Nat → ℝ) (hx : src.Holds s (fun I => .fin (x I))) :
    ∃ v, Computes (sumnormAsync src dst a) s dst v ∧ ∀ I, InBox (src.shape.eraseIdx a) I →
      v (0 :: I) = .fin (∑ L ∈ range (src.shape.getD a 0), x (I.insertIdx a L)) ∧
      v (1 :: I) = .fin (Real.sqrt (∑ L ∈ range (src.shape.getD a 0), x (I.insertIdx a L) ^ 2)) :=
  ⟨_, sumnorm_computes hs hd hid h x hx, fun I _ => ⟨rfl, rfl⟩⟩

/-- Everything else is rejected. -/
theorem C31_rejects {α : Type} [FP α] {src dst : Tensor} (hs : src.WF) (hd : dst.WF) (axis : Int)
    (h : ¬ ∃ a : Nat, axis = a ∧ dst.MseOf src a) : Throws (sumnormAsync (α := α) src dst axis) := by
  simp only [sumnormAsync]
  refine throws_step fun h1 => throws_step fun h2 => throws_step fun h3 => throws_step fun h4 => ?_
  simp only [ne_eq, not_not] at h1
  have hl : 0 < dst.shape.length := by simp only [Tensor.ndim] at h1 h2; omega
  rw [vget_ok hl, M.bind_ok]
  refine throws_step fun h5 => ?_
  rw [vget_ok (by rw [hd.2.2]; exact hl), M.bind_ok]
  refine throws_step fun h6 => ?_
  simp only [ne_eq, not_not] at h5 h6
  refine (checkMse_check hs hd (a := axis.toNat) (by omega) h1 h5 h6).throws ?_
  intro h7
  exact h ⟨axis.toNat, by omega, h7⟩

/-- A `5×7×4` tensor cut into `2×3×4` tiles, with its tensor of pairs along axis 1. -/
example : ∃ (src dst : Tensor) (s : Store XReal) (x : List Nat → ℝ), src.ntiles = 9 ∧ src.Ready s ∧ dst.Ready s ∧ src.id ≠ dst.id ∧
    dst.MseOf src 1 ∧ src.Holds s (fun I => .fin (x I)) ∧ x [1,0,0] = 1 := by
  obtain ⟨s, h1, h2⟩ := exists_store2 (A := ⟨0, [5,7,4], [2,3,4]⟩) (B := ⟨1, [2,5,4], [2,2,4]⟩)
    (fun I => XReal.fin (lin [5,7,4] I : ℝ)) (fun _ => XReal.fin 0) (by decide) (by decide) (by decide)
  exact ⟨_, _, s, _, by decide, h1.1, h2.1, by decide, ⟨by decide, by decide, by decide⟩, h1.2, by simp [lin]⟩

end NNTile
