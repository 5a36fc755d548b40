import Verif.Model.Reduce
import Verif.Model.Elementwise
/-!
# `nrm2`
-/
namespace NNTile
variable {α : Type}

/-- `cblas_?nrm2(nelems, src, 1)` stored to `dst[0]`, `src/starpu/nrm2.cc.in:36-66`. The BLAS function is external; it is replaced by its
specification, the square root of the sum of squares. -/
def nrm2Kernel [FP α] (nelems : Nat) (src dst : Buf α) : M (Buf α) := do
  let q ← forN nelems (fun i q => do
    let x ← src.rd i
    .ok (q + x * x)) (0 : α)
  dst.wr 0 (FP.sqrt q)

/-- `starpu::nrm2::submit`, `src/starpu/nrm2.cc.in:152-183`. The checks that `nelems` fits the integer type of BLAS are not modelled (sizes are
unbounded natural numbers). -/
def submitNrm2 [FP α] (nelems : Nat) (src dst : Handle) : Task1 α := task1 "nrm2" src .W dst (nrm2Kernel nelems)

/-- `src/tensor/nrm2.cc:25-122`. -/
def nrm2Async [FP α] (alpha : α) (src : Tensor) (beta : α) (dst tmp : Tensor) : M (List (Task1 α)) := do
  throwIf (dst.ndim ≠ 0) "dst.ndim != 0"
  throwIf (src.ndim ≠ tmp.ndim) "src.ndim != tmp.ndim"
  throwIf (tmp.shape ≠ src.grid) "tmp.shape != src.grid.shape"
  throwIf (¬ ∀ i, i < src.ndim → tmp.basetile.getD i 0 = 1) "tmp.basetile_shape[i] != 1"
  let dst_tile_handle ← dst.handleL 0
  forTasks src.ntiles (fun i => do
    let src_tile_handle ← src.handleL i
    let tmp_tile_handle ← tmp.handleL i
    .ok [submitNrm2 (src.tnelems i) src_tile_handle tmp_tile_handle,
      submitHypot 1 alpha tmp_tile_handle (if i = 0 then beta else 1) dst_tile_handle])

end NNTile
