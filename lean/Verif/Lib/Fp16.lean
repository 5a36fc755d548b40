import Verif.Model.Fp16
import Verif.Lib.Elementwise
import Verif.Lib.CudaEw
import Verif.Lib.Layer
/-!
# Lemmas about the conversions between `fp32_t` and `fp16_t`
-/
namespace NNTile
variable {α : Type}

theorem tnelems_like {src dst : Tensor} (h1 : src.shape = dst.shape) (h2 : src.basetile = dst.basetile) (i : Nat) : dst.tnelems i = src.tnelems i := by
  simp only [Tensor.tnelems, Tensor.tshapeL, Tensor.tindex, Tensor.tshape, Tensor.grid, h1, h2]

/-- In a build with CUDA, the loop over the tiles is that of other elementwise operations. -/
theorem conv_loop {src dst : Tensor} (h1 : src.shape = dst.shape) (h2 : src.basetile = dst.basetile) {submit : Nat → Handle → Handle → M (Task1 α)} {submit' : Nat → Handle → Handle → Task1 α}
    (h : ∀ n a b, submit n a b = .ok (submit' n a b)) :
    (forTasks src.ntiles (fun i => do
      let h ← src.handleL i
      let h' ← dst.handleL i
      let t ← submit (dst.tnelems i) h h'
      .ok [t])) = loop1 src dst submit' := by
  unfold loop1
  congr 1
  funext i
  simp only [h, tnelems_like h1 h2, M.bind_ok]

/-- A loop whose first pass throws an exception throws this exception. -/
theorem forTasks_throws {τ : Type _} {n : Nat} (hn : 0 < n) {f : Nat → M (List τ)} (h : Throws (f 0)) : Throws (forTasks n f) := by
  induction n with
  | zero => omega
  | succ n ih =>
    rcases Nat.eq_zero_or_pos n with rfl | hp
    · obtain ⟨m, e⟩ := h
      exact ⟨m, by simp only [forTasks, M.bind_ok, e]; rfl⟩
    · exact (ih hp).bind

end NNTile
