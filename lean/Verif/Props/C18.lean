import Verif.Lib.Transpose
import Verif.Lib.Store
/-!
# C18 — `transpose`

`src` has the dimensions `P ++ Q`, `dst` the dimensions `Q ++ P` (`Tensor.TransposeOf`, `Spec/Ops.lean`).
-/
namespace NNTile

/-- Element `J ++ I` of `dst` becomes `alpha * src[I ++ J]`, bit by bit and for every tiling, whatever `dst` held before (even undefined values); no
other tensor is changed. -/
theorem C18_transpose {α : Type} [FP α] {src dst : Tensor} {nd : Nat} {s : Store α} (hs : src.Ready s) (hd : dst.Ready s) (hid : src.id ≠ dst.id)
    (h : src.TransposeOf dst nd) (alpha : α) (x : List Nat → α) (hx : src.Holds s x) :
    ∃ v, Computes (transposeAsync alpha src dst nd) s dst v ∧
      ∀ I J, InBox (src.shape.take nd) I → InBox (src.shape.drop nd) J → v (J ++ I) = alpha * x (I ++ J) := by
  refine ⟨_, transposeAsync_computes hs hd hid h alpha x hx, fun I J hI hJ => ?_⟩
  have hl : src.ndim - nd = J.length := by rw [hJ.length]; simp [Tensor.ndim]
  simp only [take_of_length hl, drop_of_length hl]

/-- Exactly these arguments are accepted. -/
theorem C18_transpose_rejects {α : Type} [FP α] {src dst : Tensor} (hs : src.WF) (hd : dst.WF) (alpha : α) (ndim : Int)
    (h : ¬ ∃ nd : Nat, ndim = nd ∧ src.TransposeOf dst nd) : Throws (transposeAsync alpha src dst ndim) := by
  simp only [transposeAsync]
  refine throws_step fun g1 => throws_step fun g2 => ?_
  have hnd : dst.ndim = src.ndim := by simpa using g2
  refine (transpose_check hs hd ndim.toNat (by omega) (by omega) hnd).throws (fun h' => h ⟨ndim.toNat, by omega, h'⟩)

/-- Transposing by `nd` and then by the number of the other dimensions gives back the original (scalar multiplier one, real arithmetic), through any
two tensors the second of which has the shape of the original. -/
theorem C18_transpose_involutive {src tmp dst : Tensor} {nd : Nat} {s : Store ℝ} (hs : src.Ready s) (ht : tmp.Ready s) (hd : dst.Ready s)
    (h1 : src.id ≠ tmp.id) (h2 : tmp.id ≠ dst.id) (h3 : src.id ≠ dst.id)
    (h : src.TransposeOf tmp nd) (hsh : dst.shape = src.shape) (hbt : dst.basetile = src.basetile) (x : List Nat → ℝ) (hx : src.Holds s x) :
    ∃ t1 s1 t2 s2, transposeAsync 1 src tmp nd = .ok t1 ∧ runAll1 t1 s = .ok s1 ∧
      transposeAsync 1 tmp dst ((src.ndim : Int) - nd) = .ok t2 ∧ runAll1 t2 s1 = .ok s2 ∧ dst.Holds s2 x ∧ src.Holds s2 x := by
  obtain ⟨t1, s1, a1, a2, a3, a4, a5⟩ := transposeAsync_computes hs ht h1 h 1 x hx
  have hsl := hs.1.2.2
  have hlt := h.lt
  have hl : src.shape.length - nd = (src.shape.drop nd).length := by simp
  have hl' : src.shape.length - nd = (src.basetile.drop nd).length := by simp [hsl]
  have h' : tmp.TransposeOf dst (src.shape.length - nd) :=
    ⟨by omega, by have := h.pos; simp [h.shape]; omega,
      by rw [h.shape, hsh, take_of_length hl, drop_of_length hl, List.take_append_drop],
      by rw [h.basetile, hbt, take_of_length hl', drop_of_length hl', List.take_append_drop]⟩
  have hd1 : dst.Ready s1 := ⟨hd.1, fun i hi => by rw [a4 (dst.id, i) (by simpa using h2.symm)]; exact hd.2 i hi⟩
  obtain ⟨t2, s2, b1, b2, b3, b4, b5⟩ := transposeAsync_computes a5 hd1 h2 h' 1 _ a3
  refine ⟨t1, s1, t2, s2, a1, a2, ?_, b2, ?_, ?_⟩
  · rw [← b1]; congr 1; simp only [Tensor.ndim]; omega
  · intro I hI
    rw [b3 I hI]
    have hI' : InBox (src.shape.take nd ++ src.shape.drop nd) I := by rw [List.take_append_drop, ← hsh]; exact hI
    obtain ⟨i, j, rfl, hi, hj⟩ := hI'.exists_split
    have e1 : tmp.ndim - (src.shape.length - nd) = i.length := by
      rw [hi.length]; simp [Tensor.ndim, h.shape]
    have e2 : src.ndim - nd = j.length := by rw [hj.length]; simp [Tensor.ndim]
    simp only [take_of_length e1, drop_of_length e1, take_of_length e2, drop_of_length e2, one_mul]
  · intro I hI
    rw [b4.get (by simpa using h3), a4.get (by simpa using h1), hx I hI]

/-- The hypotheses are met: a `2 × 3` matrix in tiles of `2 × 2` is transposed into a `3 × 2` matrix in tiles of `2 × 2`. -/
example (x : List Nat → ℝ) : ∃ (src dst : Tensor) (s : Store ℝ), src.Ready s ∧ dst.Ready s ∧ src.id ≠ dst.id ∧ src.TransposeOf dst 1 ∧
    src.Holds s x ∧ ∃ v, Computes (transposeAsync 3 src dst 1) s dst v ∧ v [2, 1] = 3 * x [1, 2] := by
  obtain ⟨s, ⟨h1, h3⟩, h2, -⟩ := exists_store2 (A := ⟨0, [2, 3], [2, 2]⟩) (B := ⟨1, [3, 2], [2, 2]⟩) x (fun _ => (0 : ℝ)) (by decide) (by decide) (by decide)
  refine ⟨⟨0, [2, 3], [2, 2]⟩, ⟨1, [3, 2], [2, 2]⟩, s, h1, h2, by decide, ⟨by decide, by decide, rfl, rfl⟩, h3, ?_⟩
  obtain ⟨v, hv, hv'⟩ := C18_transpose h1 h2 (by decide) (nd := 1) ⟨by decide, by decide, rfl, rfl⟩ 3 x h3
  exact ⟨v, hv, hv' [1] [2] (by decide) (by decide)⟩

/-- A tensor without two groups of dimensions cannot be transposed. -/
example : Throws (transposeAsync (1 : ℝ) ⟨0, [2], [2]⟩ ⟨1, [2], [2]⟩ 1) :=
  C18_transpose_rejects (by decide) (by decide) _ _ (by
    rintro ⟨nd, h, h'⟩
    have := h'.lt
    simp at this
    omega)

end NNTile
