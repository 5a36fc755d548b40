import Verif.Model.CudaKernels
import Verif.Model.Softmax
/-!
# CUDA kernels with barriers and shared memory: `src/kernel/*/cuda.cu`

Buffer 0 is the one that the kernel writes, the others are numbered in the order of the arguments of the kernel. Shared arrays of a kernel are placed one after another in the shared memory of
the block.
-/
namespace NNTile
variable {α : Type}

/-- Shared memory of block `b` as an rvalue. -/
def sld (b : Dim3) (i : Nat) : PM α α := fun k => .rd (.shared b, i) k
/-- Assignment to shared memory. -/
def sst (b : Dim3) (i : Nat) (v : α) : PM α Unit := fun k => .wr (.shared b, i) v (k ())
/-- `atomicAdd` on shared memory. -/
def sadd (b : Dim3) (i : Nat) (v : α) : PM α Unit := fun k => .atomicAdd (.shared b, i) v (k ())
/-- `while(p[i] < v) { p[i] = v; }` on volatile shared memory. -/
def sraise (b : Dim3) (i : Nat) (v : α) : PM α Unit := fun k => .raise (.shared b, i) v (k ())
/-- `__syncthreads()`. -/
def syncthreads : PM α Unit := fun k => .sync (k ())

/-- `threads(std::min(int(m), 8), std::min(int(n), 8), tz)`, `blocks((m+threads.x-1)/threads.x, (n+threads.y-1)/threads.y, 1)`, e.g. `src/kernel/sum_slice/cuda.cu:30-36,93-97`: thread `t` works
for the fiber `(i0, i1)` if it exists. -/
def sliceLaunch (m n tz shared : Nat) (body : Tid → Nat → Nat → Nat → PM α Unit) : M (Launch α) :=
  let bx := uint32 (min (int32 m) 8)
  let bY := uint32 (min (int32 n) 8)
  if bx = 0 ∨ bY = 0 then .error (.ub "division by zero")
  else .ok {
    grid := ⟨uint32 (((m + bx - 1) / bx : Nat) : Int), uint32 (((n + bY - 1) / bY : Nat) : Int), 1⟩
    threads := ⟨bx, bY, tz⟩
    shared := shared
    body := fun t =>
      let i0 := gidIndex t.thr.x t.blk.x bx
      let i1 := gidIndex t.thr.y t.blk.y bY
      if i0 < m ∧ i1 < n then (body t (t.thr.x + bx * t.thr.y) i0 i1).prog else .done }

variable [FP α]

/-- The sum of the block is collected in `block_sum[slot]`; the leader calls `fin` with it. `src/kernel/sum_slice/cuda.cu:46-69`, `src/kernel/sumprod_slice/cuda.cu:47-70`,
`src/kernel/sum_fiber/cuda.cu:73-95`, `src/kernel/sumprod_fiber/cuda.cu:72-93`. -/
def blockSum (b : Dim3) (slot : Nat) (leader : Prop) [Decidable leader] (sum : α) (fin : α → PM α Unit) : PM α Unit := do
  if leader then sst b slot 0 else pure ()
  syncthreads
  sadd b slot sum
  syncthreads
  if leader then do
    let sum ← sld b slot
    fin sum
  else pure ()

/-- `result = alpha * sum` or `result = beta*result + alpha*sum`, `src/kernel/sum_slice/cuda.cu:58-68`. -/
def storeSumCuda (alpha beta : α) (i : Nat) (sum : α) : PM α Unit :=
  if FP.eqb beta 0 then st 0 i (alpha * sum)
  else do
    let result ← ld 0 i
    st 0 i (beta * result + alpha * sum)

/-- `src/kernel/sum_slice/cuda.cu:26-98`. -/
def sumSliceCuda (m n k : Nat) (alpha beta : α) : M (Launch α) :=
  let tz := uint32 (min (int32 k) 16)
  sliceLaunch m n tz 64 fun t slot i0 i1 => do
    let sum ← forP (strideCount t.thr.z k tz) (fun q sum => do
      let x ← ld 1 (i1*(m*k) + i0 + (t.thr.z + q*tz)*m)
      pure (sum + x)) (0 : α)
    blockSum t.blk slot (t.thr.z = 0) sum (storeSumCuda alpha beta (i1*m + i0))

/-- `src/kernel/sumprod_slice/cuda.cu:25-100`. -/
def sumprodSliceCuda (m n k : Nat) (alpha beta : α) : M (Launch α) :=
  sliceLaunch m n 16 64 fun t slot i0 i1 => do
    let sum ← forP (strideCount t.thr.z k 16) (fun q sum => do
      let x ← ld 1 (i1*(m*k) + i0 + (t.thr.z + q*16)*m)
      let y ← ld 2 (i1*(m*k) + i0 + (t.thr.z + q*16)*m)
      pure (sum + x * y)) (0 : α)
    blockSum t.blk slot (t.thr.z = 0) sum (storeSumCuda alpha beta (i1*m + i0))

/-- `src/kernel/sum_fiber/cuda.cu:26-127`. -/
def sumFiberCuda (m n k batch : Nat) (alpha beta : α) : Launch α :=
  let ty := uint32 (min (int32 m) 32)
  let tz := uint32 (min (int32 n) 32)
  { grid := ⟨uint32 ((k * batch : Nat) : Int), 1, 1⟩
    threads := ⟨1, ty, tz⟩
    shared := 1
    body := fun t =>
      let i2_batched := gidIndex t.thr.x t.blk.x 1
      let i2 := i2_batched % k
      let b := i2_batched / k
      if b < batch then PM.prog do
        let sum ← forP (strideCount t.thr.z n tz) (fun q sum =>
          let i1 := t.thr.z + q*tz
          forP (strideCount t.thr.y m ty) (fun r sum => do
            let val ← ld 1 (((i1 + b*n)*k + i2)*m + (t.thr.y + r*ty))
            pure (sum + val)) sum) (0 : α)
        blockSum t.blk t.thr.x (t.thr.z = 0 ∧ t.thr.y = 0) sum (storeSumCuda alpha beta i2_batched)
      else .done }

/-- `src/kernel/sumprod_fiber/cuda.cu:25-126`. -/
def sumprodFiberCuda (m n k : Nat) (alpha beta : α) : Launch α :=
  let ty := uint32 (min (int32 m) 32)
  let tz := uint32 (min (int32 n) 32)
  { grid := ⟨uint32 (((k + 2 - 1) / 2 : Nat) : Int), 1, 1⟩
    threads := ⟨2, ty, tz⟩
    shared := 2
    body := fun t =>
      let i2 := gidIndex t.thr.x t.blk.x 2
      PM.prog do
        let sum ← if i2 < k then
            forP (strideCount t.thr.z n tz) (fun q sum =>
              let i1 := t.thr.z + q*tz
              forP (strideCount t.thr.y m ty) (fun r sum => do
                let x ← ld 1 ((i1*k + i2)*m + (t.thr.y + r*ty))
                let y ← ld 2 ((i1*k + i2)*m + (t.thr.y + r*ty))
                pure (sum + x * y)) sum) (0 : α)
          else pure 0
        blockSum t.blk t.thr.x (t.thr.z = 0 ∧ t.thr.y = 0) sum fun sum =>
          if i2 < k then storeSumCuda alpha beta i2 sum else pure () }

/-- `src/kernel/norm_slice/cuda.cu:25-110`; `block_max` is placed at 0..63, `block_sum` at 64..127. -/
def normSliceCuda (m n k : Nat) (alpha beta : α) : M (Launch α) :=
  let tz := uint32 (min (int32 k) 16)
  sliceLaunch m n tz 128 fun t slot i0 i1 => do
    let sum ← forP (strideCount t.thr.z k tz) (fun q sum => do
      let x ← ld 1 (i1*(m*k) + i0 + (t.thr.z + q*tz)*m)
      pure (FP.hypot sum x)) (0 : α)
    if t.thr.z = 0 then do
      sst t.blk slot sum
      sst t.blk (64 + slot) 0
    else pure ()
    syncthreads
    sraise t.blk slot sum
    syncthreads
    let bm ← sld t.blk slot
    if FP.ltb 0 bm then do
      let bm ← sld t.blk slot
      let sum := sum / bm
      sadd t.blk (64 + slot) (sum * sum)
      syncthreads
      if t.thr.z = 0 then do
        let sum ← sld t.blk slot
        let bs ← sld t.blk (64 + slot)
        let sum := sum * FP.sqrt bs
        if FP.eqb beta 0 then st 0 (i1*m + i0) (FP.fabs alpha * sum)
        else do
          let result ← ld 0 (i1*m + i0)
          st 0 (i1*m + i0) (FP.hypot (beta * result) (alpha * sum))
      else pure ()
    else pure ()

/-- `threads(32, 1, 1), blocks(1, m, n)` with several indices per block if there are too many: `src/kernel/maxsumexp/cuda.cu:36-43,139-152`, `src/kernel/softmax/cuda.cu:33-38,87-101`. -/
def perBlockLaunch (m n shared : Nat) (active : Nat → Bool) (body : Tid → Nat → Nat → PM α Unit) : Launch α :=
  let mpb := if 65535 < m then (m + 65534) / 65535 else 1
  let npb := if 65535 < n then (n + 65534) / 65535 else 1
  { grid := ⟨1, uint32 ((if 65535 < m then (m + mpb - 1) / mpb else m : Nat) : Int), uint32 ((if 65535 < n then (n + npb - 1) / npb else n : Nat) : Int)⟩
    threads := ⟨32, 1, 1⟩
    shared := shared
    body := fun t =>
      if active t.thr.x then PM.prog
        (forP (min ((t.blk.y + 1) * mpb) m - t.blk.y * mpb) (fun q _ =>
          forP (min ((t.blk.z + 1) * npb) n - t.blk.z * npb) (fun r _ => body t (t.blk.y * mpb + q) (t.blk.z * npb + r)) ()) ())
      else .done }

/-- `src/kernel/softmax/cuda.cu:24-102`; `max` is placed at 0, `sum` at 1. -/
def softmaxCuda (m n k : Nat) (alpha : α) : Launch α := perBlockLaunch m n 2 (fun _ => true) fun t i0 i1 => do
  if t.thr.x = 0 then do
    let max ← ld 1 (2*(m*i1 + i0))
    sst t.blk 0 max
    let sum ← ld 1 (2*(m*i1 + i0) + 1)
    sst t.blk 1 sum
  else pure ()
  syncthreads
  forP (strideCount t.thr.x k 32) (fun q _ => do
    let i2 := t.thr.x + q*32
    let val ← ld 2 (i1*k*m + i0 + i2*m)
    if FP.isInf val then st 0 (i1*k*m + i0 + i2*m) 0
    else do
      let max ← sld t.blk 0
      let sum ← sld t.blk 1
      st 0 (i1*k*m + i0 + i2*m) (alpha * FP.exp (val - max) / sum)) ()

/-- `src/kernel/softmax_inplace/cuda.cu:25-99`. -/
def softmaxInplaceCuda (m n k : Nat) (alpha : α) : Launch α := perBlockLaunch m n 2 (fun _ => true) fun t i0 i1 => do
  if t.thr.x = 0 then do
    let max ← ld 1 (2*(m*i1 + i0))
    sst t.blk 0 max
    let sum ← ld 1 (2*(m*i1 + i0) + 1)
    sst t.blk 1 sum
  else pure ()
  syncthreads
  forP (strideCount t.thr.x k 32) (fun q _ => do
    let i2 := t.thr.x + q*32
    let val ← ld 0 (i1*k*m + i0 + i2*m)
    if FP.isInf val then st 0 (i1*k*m + i0 + i2*m) 0
    else do
      let max ← sld t.blk 0
      let sum ← sld t.blk 1
      st 0 (i1*k*m + i0 + i2*m) (alpha * FP.exp (val - max) / sum)) ()

/-- One element of a slice: `src/kernel/maxsumexp/cuda.cu:54-74`. -/
def mseCudaStep (val : α) (p : α × α) : α × α :=
  if FP.isInf val then p
  else if FP.ltb p.1 val then (val, p.2 * FP.exp (p.1 - val) + 1)
  else (p.1, p.2 + FP.exp (val - p.1))

/-- `src/kernel/maxsumexp/cuda.cu:26-153`; `block_max_val` is placed at 0, `block_sum_val` at 1. -/
def maxsumexpCuda (m n k : Nat) : Launch α := perBlockLaunch m n 2 (fun x => x < k) fun t i1 i2 => do
  let x0 ← ld 1 (i2*(m*k) + i1 + t.thr.x*m)
  let p ← forP (strideCount (t.thr.x + 32) k 32) (fun q p => do
    let val ← ld 1 (i2*(m*k) + i1 + (t.thr.x + 32 + q*32)*m)
    pure (mseCudaStep val p)) (x0, (1 : α))
  if t.thr.x = 0 then do
    sst t.blk 0 p.1
    sst t.blk 1 0
  else pure ()
  syncthreads
  sraise t.blk 0 p.1
  syncthreads
  if FP.isInf p.1 then pure ()
  else do
    let bm ← sld t.blk 0
    sadd t.blk 1 (p.2 * FP.exp (p.1 - bm))
  syncthreads
  if t.thr.x = 0 then do
    let bs ← sld t.blk 1
    if FP.ltb 0 bs then do
      let max_val ← sld t.blk 0
      let sum_val ← sld t.blk 1
      let o := 2*(i1 + i2*m)
      let sum_output ← ld 0 (o + 1)
      if FP.eqb sum_output 0 then do
        st 0 o max_val
        st 0 (o + 1) sum_val
      else do
        let max_output ← ld 0 o
        if FP.ltb max_val max_output then do
          st 0 o max_output
          st 0 (o + 1) (sum_output + sum_val * FP.exp (max_val - max_output))
        else do
          st 0 o max_val
          st 0 (o + 1) (sum_output * FP.exp (max_output - max_val) + sum_val)
    else pure ()
  else pure ()

end NNTile
