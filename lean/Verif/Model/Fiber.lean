import Verif.Model.Axis
/-!
# Broadcast of a fiber: `add_fiber`, `prod_fiber`, `prod_fiber3`
-/
namespace NNTile
variable {α : Type}

/-- `src/kernel/add_fiber/cpu.cc:25-81`. -/
def addFiberKernel [FP α] (m n k batch : Nat) (alpha : α) (src : Buf α) (beta : α) (dst : Buf α) : M (Buf α) :=
  forN batch (fun b dst =>
    forN k (fun i2 dst => do
      let x ← src.rd (i2 + b*k)
      let src_val := alpha * x
      forN n (fun i1 dst =>
        if FP.eqb beta 0 then
          forN m (fun i0 dst => dst.wr (((i1 + b*n)*k + i2)*m + i0) src_val) dst
        else
          forN m (fun i0 dst => do
            let dst_val ← dst.rd (((i1 + b*n)*k + i2)*m + i0)
            dst.wr (((i1 + b*n)*k + i2)*m + i0) (beta * dst_val + src_val)) dst) dst) dst) dst

/-- `src/kernel/prod_fiber/cpu.cc:25-57`. -/
def prodFiberKernel [FP α] (m n k : Nat) (alpha : α) (src dst : Buf α) : M (Buf α) :=
  forN k (fun i2 dst => do
    let x ← src.rd i2
    let src_val := alpha * x
    forN n (fun i1 dst =>
      forN m (fun i0 dst => do
        let y ← dst.rd ((i1*k + i2)*m + i0)
        dst.wr ((i1*k + i2)*m + i0) (y * src_val)) dst) dst) dst

/-- `src/kernel/prod_fiber3/cpu.cc:25-61`. -/
def prodFiber3Kernel [FP α] (m n k : Nat) (alpha : α) (src1 src2 dst : Buf α) : M (Buf α) :=
  forN k (fun i2 dst => do
    let x ← src1.rd i2
    let src1_val := alpha * x
    forN n (fun i1 dst =>
      forN m (fun i0 dst => do
        let y ← src2.rd ((i1*k + i2)*m + i0)
        dst.wr ((i1*k + i2)*m + i0) (src1_val * y)) dst) dst) dst

/-- `starpu::add_fiber::submit`, `src/starpu/add_fiber.cc:116-160` (`STARPU_RW_COMMUTE` is `STARPU_RW`). -/
def submitAddFiber [FP α] (m n k batch : Nat) (alpha : α) (src : Handle) (beta : α) (dst : Handle) : Task1 α :=
  task1 "add_fiber" src (if FP.eqb beta 0 then .W else .RW) dst (fun a b => addFiberKernel m n k batch alpha a beta b)

/-- `starpu::prod_fiber::submit`, `src/starpu/prod_fiber.cc:115-141`. -/
def submitProdFiber [FP α] (m n k : Nat) (alpha : α) (src dst : Handle) : Task1 α :=
  task1 "prod_fiber" src .RW dst (fun a b => prodFiberKernel m n k alpha a b)

/-- `starpu::prod_fiber3::submit`, `src/starpu/prod_fiber3.cc:117-145`. -/
def submitProdFiber3 [FP α] (m n k : Nat) (alpha : α) (src1 src2 dst : Handle) : Task1 α :=
  task2 "prod_fiber3" src1 src2 .W dst (fun a a' b => prodFiber3Kernel m n k alpha a a' b)

/-- `src.shape[0]` against `dst.shape[axis]`, `src.shape[i+1]` against `dst.shape[dst.ndim-batch_ndim+i]`, and the same for
`basetile_shape`: `src/tensor/add_fiber.cc:52-73`, `src/tensor/sum_fiber.cc:48-69`. -/
def checkFiber (src dst : Tensor) (axis batch_ndim : Nat) : M Unit := do
  checkPair src dst 0 axis
  forCheck batch_ndim (fun i => checkPair src dst (i + 1) (dst.ndim - batch_ndim + i))

/-- `src/tensor/add_fiber.cc:23-116`. -/
def addFiberAsync [FP α] (alpha : α) (src : Tensor) (beta : α) (dst : Tensor) (axis batch_ndim : Int) : M (List (Task1 α)) := do
  throwIf ((src.ndim : Int) ≠ batch_ndim + 1) "src.ndim != batch_ndim+1"
  throwIf (axis < 0) "axis < 0"
  throwIf (axis ≥ dst.ndim - batch_ndim) "axis >= dst.ndim-batch_ndim"
  let a := axis.toNat
  let b := batch_ndim.toNat
  checkFiber src dst a b
  if FP.eqb alpha 0 then
    .ok []
  else
    forTasks dst.ntiles (fun i => do
      let dst_tile_index := dst.tindex i
      let S := dst.tshapeL i
      let dst_tile_handle ← dst.handleL i
      let j0 ← vget dst_tile_index a
      let js ← vslice dst_tile_index (dst.ndim - b) b
      let src_tile_index := j0 :: js
      let src_tile_handle ← src.handleAt src_tile_index
      let St ← src.tshapeAt src_tile_index
      let batch := (St.drop 1).prod
      .ok [submitAddFiber (mOf S a) (nOf S a / batch) (kOf S a) batch alpha src_tile_handle beta dst_tile_handle])

/-- `src/tensor/prod_fiber.cc:23-90`. -/
def prodFiberAsync [FP α] (src : Tensor) (alpha : α) (dst : Tensor) (axis : Int) : M (List (Task1 α)) := do
  throwIf (src.ndim ≠ 1) "src.ndim != 1"
  throwIf (axis < 0) "axis < 0"
  throwIf (axis ≥ dst.ndim) "axis >= dst.ndim"
  let a := axis.toNat
  checkPair src dst 0 a
  forTasks dst.ntiles (fun i => do
    let S := dst.tshapeL i
    let dst_tile_handle ← dst.handleL i
    let j ← vget (dst.tindex i) a
    let src_tile_handle ← src.handleL j
    .ok [submitProdFiber (mOf S a) (nOf S a) (kOf S a) alpha src_tile_handle dst_tile_handle])

/-- `src/tensor/prod_fiber3.cc:23-103`. -/
def prodFiber3Async [FP α] (src1 : Tensor) (alpha : α) (src2 dst : Tensor) (axis : Int) : M (List (Task1 α)) := do
  throwIf (src1.ndim ≠ 1) "src1.ndim != 1"
  throwIf (src2.ndim ≠ dst.ndim) "src2.ndim != dst.ndim"
  throwIf (axis < 0) "axis < 0"
  throwIf (axis ≥ dst.ndim) "axis >= dst.ndim"
  let a := axis.toNat
  checkPair src1 dst 0 a
  throwIf (src2.shape ≠ dst.shape) "src2.shape != dst.shape"
  throwIf (src2.basetile ≠ dst.basetile) "src2.basetile_shape != dst.basetile_shape"
  forTasks dst.ntiles (fun i => do
    let S := dst.tshapeL i
    let dst_tile_handle ← dst.handleL i
    let j ← vget (dst.tindex i) a
    let src1_tile_handle ← src1.handleL j
    let src2_tile_handle ← src2.handleL i
    .ok [submitProdFiber3 (mOf S a) (nOf S a) (kOf S a) alpha src1_tile_handle src2_tile_handle dst_tile_handle])

end NNTile
