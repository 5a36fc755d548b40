import Verif.Model.Gemm
/-!
# `transpose`
-/
namespace NNTile
variable {α : Type}

/-- `src/kernel/transpose/cpu.cc:24-43`. -/
def transposeKernel [FP α] (m n : Nat) (alpha : α) (src dst : Buf α) : M (Buf α) :=
  forN m (fun i dst =>
    forN n (fun j dst => do
      let x ← src.rd (i + j*m)
      dst.wr (i*n + j) (alpha * x)) dst) dst

/-- `starpu::transpose::submit`, `src/starpu/transpose.cc:111-135`. -/
def submitTranspose [FP α] (m n : Nat) (alpha : α) (src dst : Handle) : Task1 α :=
  task1 "transpose" src .W dst (fun a b => transposeKernel m n alpha a b)

/-- `transpose_async`, `src/tensor/transpose.cc:24-79`. -/
def transposeAsync [FP α] (alpha : α) (src dst : Tensor) (ndim : Int) : M (List (Task1 α)) := do
  throwIf (ndim ≤ 0 ∨ ndim ≥ src.ndim) "ndim <= 0 or ndim >= src.ndim"
  throwIf (dst.ndim ≠ src.ndim) "dst.ndim != src.ndim"
  let nd := ndim.toNat
  forCheck dst.ndim (fun i => checkPair src dst ((i + nd) % dst.ndim) i)
  let grid_m := msRows src.grid nd
  let grid_n := msCols src.grid nd
  forTasks grid_m (fun i => forTasks grid_n (fun j => do
    let src_tile_handle ← src.handleL (i + j*grid_m)
    let dst_tile_handle ← dst.handleL (i*grid_n + j)
    let S := src.tshapeL (i + j*grid_m)
    .ok [submitTranspose (msRows S nd) (msCols S nd) alpha src_tile_handle dst_tile_handle]))

end NNTile
