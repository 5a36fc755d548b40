import Verif.Model.Fiber
/-!
# Reductions along slices and fibers: `sum_slice`, `sumprod_slice`, `norm_slice`, `sum_fiber`, `sumprod_fiber`
-/
namespace NNTile
variable {α : Type}

/-- One step of Kahan summation on `(sum, c)`: `y = val - c; t = sum + y; c = (t-sum) - y; sum = t;`, `src/kernel/sum_slice/cpu.cc:62-66`. -/
def kahan [FP α] (val : α) (p : α × α) : α × α :=
  let y := val - p.2
  let t := p.1 + y
  (t, (t - p.1) - y)

/-- `if(beta == zero) result = alpha * sum; else result = (beta*result-alpha*c) + alpha*sum;`, `src/kernel/sum_slice/cpu.cc:69-76`,
`src/kernel/sumprod_slice/cpu.cc:72-79`, `src/kernel/sum_fiber/cpu.cc:76-84`, `src/kernel/sumprod_fiber/cpu.cc:75-82`. -/
def storeSum [FP α] (alpha beta : α) (i : Nat) (p : α × α) (dst : Buf α) : M (Buf α) :=
  if FP.eqb beta 0 then
    dst.wr i (alpha * p.1)
  else do
    let r ← dst.rd i
    dst.wr i ((beta * r - alpha * p.2) + alpha * p.1)

/-- `src/kernel/sum_slice/cpu.cc:27-79`. -/
def sumSliceKernel [FP α] (m n k : Nat) (alpha : α) (src : Buf α) (beta : α) (dst : Buf α) : M (Buf α) :=
  forN n (fun i2 dst =>
    forN m (fun i1 dst => do
      let p ← forN k (fun i0 p => do
        let x ← src.rd (i2*(m*k) + i1 + i0*m)
        .ok (kahan x p)) ((0 : α), (0 : α))
      storeSum alpha beta (i2*m + i1) p dst) dst) dst

/-- `src/kernel/sumprod_slice/cpu.cc:25-82`. -/
def sumprodSliceKernel [FP α] (m n k : Nat) (alpha : α) (src1 src2 : Buf α) (beta : α) (dst : Buf α) : M (Buf α) :=
  forN n (fun i2 dst =>
    forN m (fun i1 dst => do
      let p ← forN k (fun i0 p => do
        let x ← src1.rd (i2*(m*k) + i1 + i0*m)
        let y ← src2.rd (i2*(m*k) + i1 + i0*m)
        .ok (kahan (x * y) p)) ((0 : α), (0 : α))
      storeSum alpha beta (i2*m + i1) p dst) dst) dst

/-- `src/kernel/sum_fiber/cpu.cc:26-87`. -/
def sumFiberKernel [FP α] (m n k batch : Nat) (alpha : α) (src : Buf α) (beta : α) (dst : Buf α) : M (Buf α) :=
  forN batch (fun b dst =>
    forN k (fun i2 dst => do
      let p ← forN n (fun i1 p =>
        forN m (fun i0 p => do
          let x ← src.rd (((i1 + b*n)*k + i2)*m + i0)
          .ok (kahan x p)) p) ((0 : α), (0 : α))
      storeSum alpha beta (i2 + b*k) p dst) dst) dst

/-- `src/kernel/sumprod_fiber/cpu.cc:25-84`: plain summation, `c` stays zero. -/
def sumprodFiberKernel [FP α] (m n k : Nat) (alpha : α) (src1 src2 : Buf α) (beta : α) (dst : Buf α) : M (Buf α) :=
  forN k (fun i2 dst => do
    let p ← forN n (fun i1 p =>
      forN m (fun i0 p => do
        let x ← src1.rd ((i1*k + i2)*m + i0)
        let y ← src2.rd ((i1*k + i2)*m + i0)
        .ok (p.1 + x * y, p.2)) p) ((0 : α), (0 : α))
    storeSum alpha beta i2 p dst) dst

/-- State of the accumulation of a norm. -/
structure NormAcc (α : Type) where
  max : α
  ssq : α
  c : α

/-- `a >= b`. -/
def FP.geb [FP α] (a b : α) : Bool := FP.ltb b a || FP.eqb a b

/-- `src/kernel/norm_slice/cpu.cc:63-88`. -/
def normStep [FP α] (x : α) (p : NormAcc α) : NormAcc α :=
  let val := FP.fabs x
  if FP.ltb 0 val then
    if FP.geb p.max val then
      let tmp1 := val / p.max
      let y := tmp1*tmp1 - p.c
      let t := p.ssq + y
      ⟨p.max, t, (t - p.ssq) - y⟩
    else
      let tmp1 := p.max / val
      let tmp2 := tmp1 * tmp1
      let y := 1 - p.c*tmp2
      let ssq := p.ssq * tmp2
      let t := ssq + y
      ⟨val, t, (t - ssq) - y⟩
  else
    p

/-- `src/kernel/norm_slice/cpu.cc:91-121`. -/
def storeNorm [FP α] (alpha beta : α) (i : Nat) (p : NormAcc α) (dst : Buf α) : M (Buf α) :=
  let norm_max := p.max * alpha
  if FP.eqb beta 0 then
    dst.wr i (norm_max * FP.sqrt p.ssq)
  else do
    let r ← dst.rd i
    let tmp_res := FP.fabs (beta * r)
    if FP.ltb 0 norm_max then
      if FP.geb norm_max tmp_res then
        let tmp1 := tmp_res / norm_max
        dst.wr i (norm_max * FP.sqrt ((tmp1*tmp1 - p.c) + p.ssq))
      else
        let tmp1 := norm_max / tmp_res
        let tmp2 := tmp1 * tmp1
        dst.wr i (tmp_res * FP.sqrt ((1 - p.c*tmp2) + p.ssq*tmp2))
    else
      dst.wr i tmp_res

/-- `src/kernel/norm_slice/cpu.cc:26-124`. -/
def normSliceKernel [FP α] (m n k : Nat) (alpha : α) (src : Buf α) (beta : α) (dst : Buf α) : M (Buf α) :=
  forN n (fun i2 dst =>
    forN m (fun i1 dst => do
      let p ← forN k (fun i0 p => do
        let x ← src.rd (i2*(m*k) + i1 + i0*m)
        .ok (normStep x p)) (⟨0, 0, 0⟩ : NormAcc α)
      storeNorm (FP.fabs alpha) beta (i2*m + i1) p dst) dst) dst

/-- Access mode of the output of a reduction: `src/starpu/sum_slice.cc:123-145` and the same lines in `sumprod_slice.cc`, `sum_fiber.cc`,
`sumprod_fiber.cc`, `norm_slice.cc` (`STARPU_RW_COMMUTE` is `STARPU_RW`). -/
def reduceMode [FP α] (beta : α) (redux : Bool) : WMode :=
  if FP.eqb beta 0 then .W
  else if FP.eqb beta 1 then (if redux then .REDUX else .RW)
  else .RW

/-- `starpu::sum_slice::submit`, `src/starpu/sum_slice.cc:115-167`. -/
def submitSumSlice [FP α] (m n k : Nat) (alpha : α) (src : Handle) (beta : α) (dst : Handle) (redux : Bool) : Task1 α :=
  task1 "sum_slice" src (reduceMode beta redux) dst (fun a b => sumSliceKernel m n k alpha a beta b)

/-- `starpu::sumprod_slice::submit`, `src/starpu/sumprod_slice.cc:116-168`. -/
def submitSumprodSlice [FP α] (m n k : Nat) (alpha : α) (src1 src2 : Handle) (beta : α) (dst : Handle) (redux : Bool) : Task1 α :=
  task2 "sumprod_slice" src1 src2 (reduceMode beta redux) dst (fun a a' b => sumprodSliceKernel m n k alpha a a' beta b)

/-- `starpu::norm_slice::submit`, `src/starpu/norm_slice.cc:115-164`. -/
def submitNormSlice [FP α] (m n k : Nat) (alpha : α) (src : Handle) (beta : α) (dst : Handle) (redux : Bool) : Task1 α :=
  task1 "norm_slice" src (reduceMode beta redux) dst (fun a b => normSliceKernel m n k alpha a beta b)

/-- `starpu::sum_fiber::submit`, `src/starpu/sum_fiber.cc:115-165`. -/
def submitSumFiber [FP α] (m n k batch : Nat) (alpha : α) (src : Handle) (beta : α) (dst : Handle) (redux : Bool) : Task1 α :=
  task1 "sum_fiber" src (reduceMode beta redux) dst (fun a b => sumFiberKernel m n k batch alpha a beta b)

/-- `starpu::sumprod_fiber::submit`, `src/starpu/sumprod_fiber.cc:117-169`. -/
def submitSumprodFiber [FP α] (m n k : Nat) (alpha : α) (src1 src2 : Handle) (beta : α) (dst : Handle) (redux : Bool) : Task1 α :=
  task2 "sumprod_fiber" src1 src2 (reduceMode beta redux) dst (fun a a' b => sumprodFiberKernel m n k alpha a a' beta b)

/-- The loop over the tiles of `dst` and, for each, over the tiles of `src` along `axis`, the first of which is submitted with `beta` and
the others with `one`: `src/tensor/sum_slice.cc:71-138`, `src/tensor/sumprod_slice.cc:81-151`, `src/tensor/norm_slice.cc:76-128` (there the
two cases are in one loop). `submit` gets the factor, the shape, handle and number of the tile of `src`, and the handle of the tile of `dst`. -/
def sliceReduceLoop [FP α] (src dst : Tensor) (axis : Nat) (beta : α) (submit : α → List Nat → Handle → Nat → Handle → M (Task1 α)) :
    M (List (Task1 α)) :=
  forTasks dst.ntiles (fun i => do
    let dst_tile_handle ← dst.handleL i
    let g ← vget src.grid axis
    forTasks g (fun j => do
      let src_tile_index := (dst.tindex i).insertIdx axis j
      let src_tile_handle ← src.handleAt src_tile_index
      let S ← src.tshapeAt src_tile_index
      let t ← submit (if j = 0 then beta else 1) S src_tile_handle (lin src.grid src_tile_index) dst_tile_handle
      .ok [t]))

/-- `src/tensor/sum_slice.cc:26-138`. -/
def sumSliceAsync [FP α] (alpha : α) (src : Tensor) (beta : α) (dst : Tensor) (axis : Int) (redux : Bool) : M (List (Task1 α)) := do
  throwIf ((src.ndim : Int) - 1 ≠ dst.ndim) "src.ndim - 1 != dst.ndim"
  throwIf (src.ndim = 0) "Scalar input makes no sense"
  throwIf (axis < 0) "axis < 0"
  throwIf (axis ≥ src.ndim) "axis >= src.ndim"
  let a := axis.toNat
  checkErase src dst a
  sliceReduceLoop src dst a beta (fun beta S hs _ hd => .ok (submitSumSlice (mOf S a) (nOf S a) (kOf S a) alpha hs beta hd redux))

/-- `src/tensor/sumprod_slice.cc:24-151`. -/
def sumprodSliceAsync [FP α] (alpha : α) (src1 src2 : Tensor) (beta : α) (dst : Tensor) (axis : Int) (redux : Bool) : M (List (Task1 α)) := do
  throwIf (src1.shape ≠ src2.shape) "src1.shape != src2.shape"
  throwIf (src1.ndim ≠ dst.ndim + 1) "src1.ndim != dst.ndim+1"
  throwIf (src1.ndim = 0) "Scalar input makes no sense"
  throwIf (axis < 0) "axis < 0"
  throwIf (axis ≥ src1.ndim) "axis >= src1.ndim"
  let a := axis.toNat
  checkErase src1 dst a
  sliceReduceLoop src1 dst a beta (fun beta S hs i hd => do
    let hs2 ← src2.handleL i
    .ok (submitSumprodSlice (mOf S a) (nOf S a) (kOf S a) alpha hs hs2 beta hd redux))

/-- `src/tensor/norm_slice.cc:23-129`. -/
def normSliceAsync [FP α] (alpha : α) (src : Tensor) (beta : α) (dst : Tensor) (axis : Int) (redux : Bool) : M (List (Task1 α)) := do
  throwIf ((src.ndim : Int) - 1 ≠ dst.ndim) "src.ndim-1 != dst.ndim"
  throwIf (src.ndim = 0) "Scalar input makes no sense"
  throwIf (axis < 0) "axis < 0"
  throwIf (axis ≥ src.ndim) "axis >= src.ndim"
  let a := axis.toNat
  checkErase src dst a
  sliceReduceLoop src dst a beta (fun beta S hs _ hd => .ok (submitNormSlice (mOf S a) (nOf S a) (kOf S a) alpha hs beta hd redux))

/-- `init_first`: `for(Index j = 0; j < src.ndim-batch_ndim; ++j) if(j != axis and src_tile_index[j] != 0) init_first = false;`,
`src/tensor/sum_fiber.cc:103-111`, `src/tensor/sumprod_fiber.cc:93-101`. -/
def initFirst (idx : List Nat) (n axis : Nat) : Bool := (List.range n).all (fun j => j = axis || idx.getD j 0 = 0)

/-- `src/tensor/sum_fiber.cc:24-130`. -/
def sumFiberAsync [FP α] (alpha : α) (src : Tensor) (beta : α) (dst : Tensor) (axis batch_ndim : Int) (redux : Bool) : M (List (Task1 α)) := do
  throwIf ((dst.ndim : Int) ≠ batch_ndim + 1) "dst.ndim != batch_ndim+1"
  throwIf (src.ndim = 0) "Scalar input makes no sense"
  throwIf (axis < 0) "axis < 0"
  throwIf (axis ≥ src.ndim - batch_ndim) "axis >= src.ndim-batch_ndim"
  let a := axis.toNat
  let b := batch_ndim.toNat
  checkFiber dst src a b
  forTasks src.ntiles (fun i => do
    let src_tile_handle ← src.handleL i
    let S := src.tshapeL i
    let src_tile_index := src.tindex i
    let j0 ← vget src_tile_index a
    let js ← vslice src_tile_index (src.ndim - b) b
    let dst_tile_index := j0 :: js
    let dst_tile_handle ← dst.handleAt dst_tile_index
    let Sd ← dst.tshapeAt dst_tile_index
    let batch := (Sd.drop 1).prod
    if initFirst src_tile_index (src.ndim - b) a then
      .ok [submitSumFiber (mOf S a) (nOf S a / batch) (kOf S a) batch alpha src_tile_handle beta dst_tile_handle false]
    else
      .ok [submitSumFiber (mOf S a) (nOf S a / batch) (kOf S a) batch alpha src_tile_handle 1 dst_tile_handle redux])

/-- `src/tensor/sumprod_fiber.cc:23-122`. -/
def sumprodFiberAsync [FP α] (alpha : α) (src1 src2 : Tensor) (beta : α) (dst : Tensor) (axis : Int) (redux : Bool) : M (List (Task1 α)) := do
  throwIf (src1.shape ≠ src2.shape) "src1.shape != src2.shape"
  throwIf (dst.ndim ≠ 1) "dst.ndim != 1"
  throwIf (src1.ndim = 0) "Scalar input makes no sense"
  throwIf (axis < 0) "axis < 0"
  throwIf (axis ≥ src1.ndim) "axis >= src1.ndim"
  let a := axis.toNat
  checkPair src1 dst a 0
  forTasks src1.ntiles (fun i => do
    let src1_tile_handle ← src1.handleL i
    let src2_tile_handle ← src2.handleL i
    let S := src1.tshapeL i
    let src_tile_index := src1.tindex i
    let j ← vget src_tile_index a
    let dst_tile_handle ← dst.handleL j
    if initFirst src_tile_index src1.ndim a then
      .ok [submitSumprodFiber (mOf S a) (nOf S a) (kOf S a) alpha src1_tile_handle src2_tile_handle beta dst_tile_handle false]
    else
      .ok [submitSumprodFiber (mOf S a) (nOf S a) (kOf S a) alpha src1_tile_handle src2_tile_handle 1 dst_tile_handle redux])

end NNTile
