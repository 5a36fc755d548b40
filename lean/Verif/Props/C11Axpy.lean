import Verif.Model.Axpy
import Verif.Lib.Elementwise
import Verif.Lib.RealFP
import Verif.Lib.Adam
/-!
# C11 — element-wise tensor operations (continued): `axpy` with a scalar factor, the checks of `addcdiv`
-/
namespace NNTile
variable {α : Type} [FP α]

/-- `axpy` with a factor given by value: `dst += alpha*src`. -/
theorem C11_axpy_scalar {src dst : Tensor} {s : Store α} (hs : src.Ready s) (hd : dst.Ready s) (hlike : src.Like dst) (alpha : α)
    (x y : List Nat → α) (hx : src.Holds s x) (hy : dst.Holds s y) :
    Computes (axpyScalarAsync alpha src dst) s dst (fun I => alpha * x I + y I) := by
  obtain ⟨hid, h1, h2⟩ := hlike
  simp only [axpyScalarAsync, checkSame'_ok h1 h2, M.bind_ok]
  refine computes1 hd hs.2 hid h1 h2 (mode := .RW)
    (body := fun src i dst => do
      let x ← src.rd i
      let y ← dst.rd i
      dst.wr i (alpha * x + y)) (fun n h h' => rfl) _
    (fun a o v => ∃ x y, a = some x ∧ o = some y ∧ v = alpha * x + y)
    ?_ (fun I hI => ⟨x I, y I, hx I (h1 ▸ hI), by simpa using hy I hI, rfl⟩)
  rintro i a d v ha hi ⟨x, y, e, e', rfl⟩
  simp only [Buf.rd_ok ha e, Buf.rd_ok hi e', M.bind_ok]
  exact Buf.wr_put hi

/-- `axpy` rejects operands of different shapes or tilings. -/
theorem C11_axpy_scalar_rejects {src dst : Tensor} (h : src.shape ≠ dst.shape ∨ src.basetile ≠ dst.basetile) (alpha : α) :
    Throws (axpyScalarAsync alpha src dst) := (checkSame'_throws h).bind

/-- `addcdiv` rejects operands of different shapes. -/
theorem C11_addcdiv_rejects {nom denom src : Tensor} (hn : nom.WF) (hd : denom.WF) (hs : src.WF)
    (h : nom.shape ≠ denom.shape ∨ src.shape ≠ nom.shape) (val eps : α) : Throws (addcdivAsync val eps nom denom src) := by
  have h1 := fun e => matrixShapeOf_inj hn.1 hd.1 e
  have h2 := fun e => matrixShapeOf_inj hs.1 hn.1 e
  simp only [addcdivAsync, throws_throwIf_bind, ne_eq]
  tauto

end NNTile
