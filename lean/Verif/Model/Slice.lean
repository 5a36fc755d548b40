import Verif.Model.Axis
/-!
# Broadcast of a slice: `add_slice`, `add_slice3`, `prod_slice`
-/
namespace NNTile
variable {α : Type}

/-- `src/kernel/add_slice/cpu.cc:25-75`. -/
def addSliceKernel [FP α] (m n k : Nat) (alpha : α) (src : Buf α) (beta : α) (dst : Buf α) : M (Buf α) :=
  forN n (fun i2 dst =>
    forN m (fun i1 dst => do
      let x ← src.rd (i2*m + i1)
      let src_val := alpha * x
      if FP.eqb beta 0 then
        forN k (fun i0 dst => dst.wr (i2*(m*k) + i1 + i0*m) src_val) dst
      else
        forN k (fun i0 dst => do
          let dst_val ← dst.rd (i2*(m*k) + i1 + i0*m)
          dst.wr (i2*(m*k) + i1 + i0*m) (beta * dst_val + src_val)) dst) dst) dst

/-- `src/kernel/add_slice3/cpu.cc:25-77`. -/
def addSlice3Kernel [FP α] (m n k : Nat) (alpha : α) (src1 : Buf α) (beta : α) (src2 dst : Buf α) : M (Buf α) :=
  forN n (fun i2 dst =>
    forN m (fun i1 dst => do
      let x ← src1.rd (i2*m + i1)
      let src1_val := alpha * x
      if FP.eqb beta 0 then
        forN k (fun i0 dst => dst.wr (i2*(m*k) + i1 + i0*m) src1_val) dst
      else
        forN k (fun i0 dst => do
          let y ← src2.rd (i2*(m*k) + i1 + i0*m)
          dst.wr (i2*(m*k) + i1 + i0*m) (beta * y + src1_val)) dst) dst) dst

/-- `src/kernel/prod_slice/cpu.cc:25-58`. -/
def prodSliceKernel [FP α] (m n k : Nat) (alpha : α) (src dst : Buf α) : M (Buf α) :=
  forN n (fun i2 dst =>
    forN m (fun i1 dst => do
      let x ← src.rd (i2*m + i1)
      let src_val := alpha * x
      forN k (fun i0 dst => do
        let y ← dst.rd (i2*(m*k) + i1 + i0*m)
        dst.wr (i2*(m*k) + i1 + i0*m) (y * src_val)) dst) dst) dst

/-- `starpu::add_slice::submit`, `src/starpu/add_slice.cc:115-157` (`STARPU_RW_COMMUTE` is `STARPU_RW`). -/
def submitAddSlice [FP α] (m n k : Nat) (alpha : α) (src : Handle) (beta : α) (dst : Handle) : Task1 α :=
  task1 "add_slice" src (if FP.eqb beta 0 then .W else .RW) dst (fun a b => addSliceKernel m n k alpha a beta b)

/-- `starpu::add_slice3::submit`, `src/starpu/add_slice3.cc:117-146`. -/
def submitAddSlice3 [FP α] (m n k : Nat) (alpha : α) (src1 : Handle) (beta : α) (src2 dst : Handle) : Task1 α :=
  task2 "add_slice3" src1 src2 .W dst (fun a a' b => addSlice3Kernel m n k alpha a beta a' b)

/-- `starpu::prod_slice::submit`, `src/starpu/prod_slice.cc:115-141`. -/
def submitProdSlice [FP α] (m n k : Nat) (alpha : α) (src dst : Handle) : Task1 α :=
  task1 "prod_slice" src .RW dst (fun a b => prodSliceKernel m n k alpha a b)

/-- The loops over the tiles of `src` and over the tiles of `dst` along `axis`: `src/tensor/add_slice.cc:79-127`,
`src/tensor/add_slice3.cc:92-143`, `src/tensor/prod_slice.cc:78-126`. `submit` gets the shape of the tile of `dst`, the handle of the tile
of `src`, the handle of the tile of `dst` and its number. -/
def sliceLoop (src dst : Tensor) (axis : Nat) (submit : List Nat → Handle → Handle → Nat → M (Task1 α)) : M (List (Task1 α)) :=
  forTasks src.ntiles (fun i => do
    let src_tile_handle ← src.handleL i
    let g ← vget dst.grid axis
    forTasks g (fun j => do
      let dst_tile_index := (src.tindex i).insertIdx axis j
      let dst_tile_handle ← dst.handleAt dst_tile_index
      let S ← dst.tshapeAt dst_tile_index
      let t ← submit S src_tile_handle dst_tile_handle (lin dst.grid dst_tile_index)
      .ok [t]))

/-- `src/tensor/add_slice.cc:23-128`. -/
def addSliceAsync [FP α] (alpha : α) (src : Tensor) (beta : α) (dst : Tensor) (axis : Int) : M (List (Task1 α)) := do
  throwIf (dst.ndim ≠ src.ndim + 1) "dst.ndim != src.ndim+1"
  throwIf (axis < 0) "axis < 0"
  throwIf (axis ≥ dst.ndim) "axis >= dst.ndim"
  let a := axis.toNat
  checkErase dst src a
  sliceLoop src dst a (fun S h h' _ => .ok (submitAddSlice (mOf S a) (nOf S a) (kOf S a) alpha h beta h'))

/-- `src/tensor/add_slice3.cc:23-144`. -/
def addSlice3Async [FP α] (alpha : α) (src1 : Tensor) (beta : α) (src2 dst : Tensor) (axis : Int) : M (List (Task1 α)) := do
  throwIf (dst.ndim ≠ src1.ndim + 1) "dst.ndim != src1.ndim+1"
  throwIf (dst.ndim ≠ src2.ndim) "dst.ndim != src2.ndim"
  throwIf (axis < 0) "axis < 0"
  throwIf (axis ≥ dst.ndim) "axis >= dst.ndim"
  let a := axis.toNat
  checkErase dst src1 a
  throwIf (dst.shape ≠ src2.shape) "dst.shape != src2.shape"
  throwIf (dst.basetile ≠ src2.basetile) "dst.basetile_shape != src2.basetile_shape"
  sliceLoop src1 dst a (fun S h h' i => do
    let h2 ← src2.handleL i
    .ok (submitAddSlice3 (mOf S a) (nOf S a) (kOf S a) alpha h beta h2 h'))

/-- `src/tensor/prod_slice.cc:23-127`. -/
def prodSliceAsync [FP α] (src : Tensor) (alpha : α) (dst : Tensor) (axis : Int) : M (List (Task1 α)) := do
  throwIf (dst.ndim ≠ src.ndim + 1) "dst.ndim != src.ndim+1"
  throwIf (axis < 0) "axis < 0"
  throwIf (axis ≥ dst.ndim) "axis >= dst.ndim"
  let a := axis.toNat
  checkErase dst src a
  sliceLoop src dst a (fun S h h' _ => .ok (submitProdSlice (mOf S a) (nOf S a) (kOf S a) alpha h h'))

end NNTile
