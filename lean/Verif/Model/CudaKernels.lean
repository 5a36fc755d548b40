import Verif.Model.Cuda
import Verif.Model.Sumnorm
/-!
# CUDA kernels without barriers: `src/kernel/*/cuda.cu`

Buffer 0 is the one that the kernel writes, the others are numbered in the order of the arguments of the kernel.
-/
namespace NNTile
variable {α : Type}

/-- Computed in `unsigned int`, converted to `int`: `int i = threadIdx.x + blockIdx.x*blockDim.x`. -/
def gidInt (thr blk dim : Nat) : Int := int32 (uint32 (thr + blk * dim))
/-- Computed in `unsigned int`, converted to `Index`: `Index i = threadIdx.x + blockIdx.x*blockDim.x`. -/
def gidIndex (thr blk dim : Nat) : Nat := uint32 (thr + blk * dim)

/-- `blocks((nelems+bs-1)/bs), threads(bs)` and a kernel that starts with `int i = threadIdx.x + blockIdx.x*blockDim.x; if(i < nelems)`. A negative `i` passes this check, and every body
accesses an array at `i`. -/
def ewLaunch (bs n : Nat) (body : Nat → PM α Unit) : Launch α where
  grid := ⟨uint32 (((n + bs - 1) / bs : Nat) : Int), 1, 1⟩
  threads := ⟨bs, 1, 1⟩
  shared := 0
  body t :=
    let i := gidInt t.thr.x t.blk.x bs
    if i < n then if i < 0 then .ub else (body i.toNat).prog else .done

/-- Signed overflow of an `int` expression with value `x` is undefined behaviour. -/
def intExpr (x : Nat) : PM α Unit := fun k => if x < 2^31 then k () else .ub

/-- `src/kernel/fill/cuda.cu:24-47`. -/
def fillCuda (nelems : Nat) (val : α) : Launch α := ewLaunch 256 nelems fun i => st 0 i val

variable [FP α]

/-- `src/kernel/add/cuda.cu:26-68`. -/
def addCuda (nelems : Nat) (alpha beta : α) : Launch α := ewLaunch 256 nelems fun i => do
  let x ← ld 1 i
  let y ← ld 0 i
  st 0 i (alpha * x + beta * y)

/-- `src/kernel/add_scalar/cuda.cu:25-50`. -/
def addScalarCuda (nelems : Nat) (alpha beta : α) : Launch α := ewLaunch 256 nelems fun i => do
  let y ← ld 0 i
  st 0 i (alpha + beta * y)

/-- `src/kernel/addcdiv/cuda.cu:25-55`. -/
def addcdivCuda (val eps : α) (nelems : Nat) : Launch α := ewLaunch 256 nelems fun i => do
  let r ← ld 0 i
  let a ← ld 1 i
  let b ← ld 2 i
  st 0 i (r + val * a / (b + eps))

/-- `src/kernel/dgelu/cuda.cu:24-57`. -/
def dgeluCuda (nelems : Nat) : Launch α :=
  let f1 : α := -1 / FP.sqrt (FP.lit 2)
  let f2 : α := 1 / FP.sqrt (FP.lit 2 * FP.pi)
  ewLaunch 256 nelems fun i => do
    let z ← ld 0 i
    let x := FP.exp (-FP.lit (1/2) * z * z)
    let y := FP.erfc (f1 * z)
    st 0 i (z * f2 * x + FP.lit (1/2) * y)

/-- `f2 = sqrt_2/sqrt_pi` of the gelutanh family, e.g. `src/kernel/gelutanh/cuda.cu:33-34`. -/
def cudaF2 : α := FP.sqrt (FP.lit 2) / FP.sqrt FP.pi
/-- `f3 = -T{2}*f2`, `src/kernel/gelutanh/cuda.cu:34`. -/
def cudaF3 : α := -FP.lit 2 * cudaF2
/-- `f4 = f3*f1`, `src/kernel/gelutanh/cuda.cu:31,34`. -/
def cudaF4 : α := cudaF3 * FP.lit (44715/1000000)
/-- `f5 = T{3}*f4`, `src/kernel/dgelutanh/cuda.cu:34`. -/
def cudaF5 : α := FP.lit 3 * cudaF4

/-- `src/kernel/dgelutanh/cuda.cu:24-72`. -/
def dgelutanhCuda (nelems : Nat) : Launch α := ewLaunch 256 nelems fun i => do
  let z ← ld (α := α) 0 i
  let z2 := z * z
  let y1 := z * (cudaF3 + cudaF4 * z2)
  let y2 := z * (cudaF3 + cudaF5 * z2)
  let expy1 := FP.exp y1
  if FP.isInf expy1 then st 0 i 0
  else
    let inv := 1 / (expy1 + 1)
    st 0 i ((1 - y2 * (1 - inv)) * inv)

/-- `src/kernel/drelu/cuda.cu:24-54`. -/
def dreluCuda (nelems : Nat) : Launch α := ewLaunch 256 nelems fun i => do
  let z ← ld (α := α) 0 i
  if FP.ltb 0 z then st 0 i 1 else st 0 i 0

/-- `src/kernel/gelu/cuda.cu:24-53`. -/
def geluCuda (nelems : Nat) : Launch α :=
  let f1 : α := -1 / FP.sqrt (FP.lit 2)
  ewLaunch 256 nelems fun i => do
    let z ← ld 0 i
    let y := FP.erfc (f1 * z)
    st 0 i (FP.lit (1/2) * z * y)

/-- `src/kernel/gelu_backward/cuda.cu:25-57`; `x[i]` is read four times, `const T *x` does not alias `dx`. -/
def geluBackwardCuda (nelems : Nat) : Launch α :=
  let f1 : α := -1 / FP.sqrt (FP.lit 2)
  let f2 : α := 1 / FP.sqrt (FP.lit 2 * FP.pi)
  ewLaunch 256 nelems fun i => do
    let x1 ← ld 1 i
    let x2 ← ld 1 i
    let exp_x := FP.exp (-FP.lit (1/2) * x1 * x2)
    let x3 ← ld 1 i
    let y := FP.erfc (f1 * x3)
    let d ← ld 0 i
    let x4 ← ld 1 i
    let g ← ld 2 i
    st 0 i (d + (x4 * f2 * exp_x + FP.lit (1/2) * y) * g)

/-- `src/kernel/gelutanh/cuda.cu:24-59`. -/
def gelutanhCuda (nelems : Nat) : Launch α := ewLaunch 256 nelems fun i => do
  let z ← ld (α := α) 1 i
  let y := z * (cudaF3 + cudaF4 * z * z)
  st 0 i (z / (1 + FP.exp y))

/-- `src/kernel/gelutanh_inplace/cuda.cu:24-58`. -/
def gelutanhInplaceCuda (nelems : Nat) : Launch α := ewLaunch 256 nelems fun i => do
  let z ← ld (α := α) 0 i
  let y := z * (cudaF3 + cudaF4 * z * z)
  st 0 i (z / (1 + FP.exp y))

/-- `src/kernel/gelutanh_backward/cuda.cu:25-67`. -/
def gelutanhBackwardCuda (nelems : Nat) : Launch α := ewLaunch 256 nelems fun i => do
  let z ← ld (α := α) 1 i
  let z2 := z * z
  let y1 := z * (cudaF3 + cudaF4 * z2)
  let y2 := z * (cudaF3 + cudaF5 * z2)
  let expy1 := FP.exp y1
  if ! FP.isInf expy1 then do
    let inv := 1 / (expy1 + 1)
    let d ← ld 0 i
    let g ← ld 2 i
    st 0 i (d + (1 - y2 * (1 - inv)) * inv * g)
  else pure ()

/-- `src/kernel/hypot/cuda.cu:24-87`. -/
def hypotCuda (nelems : Nat) (alpha beta : α) : Launch α := ewLaunch 256 nelems fun i =>
  if FP.eqb alpha 0 then
    if FP.eqb beta 0 then st 0 i 0
    else do
      let y ← ld 0 i
      st 0 i (FP.fabs (beta * y))
  else
    if FP.eqb beta 0 then do
      let x ← ld 1 i
      st 0 i (FP.fabs (alpha * x))
    else do
      let x ← ld 1 i
      let y ← ld 0 i
      st 0 i (FP.hypot (alpha * x) (beta * y))

/-- `src/kernel/hypot_scalar_inverse/cuda.cu:24-61`. -/
def hypotScalarInverseCuda (nelems : Nat) (eps alpha : α) : Launch α := ewLaunch 256 nelems fun i => do
  let y ← ld 0 i
  st 0 i (FP.lit 1 / FP.hypot (alpha * y) eps)

/-- `src/kernel/logsumexp/cuda.cu:25-51`. -/
def logsumexpCuda (nelems : Nat) : Launch α := ewLaunch 32 nelems fun i => do
  intExpr (2*i)
  let x ← ld (α := α) 1 (2*i)
  intExpr (2*i+1)
  let y ← ld 1 (2*i+1)
  st 0 i (x + FP.log y)

/-- `src/kernel/maximum/cuda.cu:25-50`. -/
def maximumCuda (nelems : Nat) : Launch α := ewLaunch 256 nelems fun i => do
  let y ← ld (α := α) 0 i
  let x ← ld 1 i
  st 0 i (FP.fmax y x)

/-- `src/kernel/prod/cuda.cu:24-48`. -/
def prodCuda (nelems : Nat) : Launch α := ewLaunch 256 nelems fun i => do
  let y ← ld (α := α) 0 i
  let x ← ld 1 i
  st 0 i (y * x)

/-- `src/kernel/relu/cuda.cu:24-49`. -/
def reluCuda (nelems : Nat) : Launch α := ewLaunch 256 nelems fun i => do
  let z ← ld (α := α) 0 i
  st 0 i (FP.fmax z 0)

/-- `src/kernel/relu_forward/cuda.cu:24-50`. -/
def reluForwardCuda (nelems : Nat) : Launch α := ewLaunch 256 nelems fun i => do
  let x ← ld (α := α) 1 i
  st 0 i (FP.fmax x 0)

/-- `src/kernel/relu_backward/cuda.cu:24-54`. -/
def reluBackwardCuda (nelems : Nat) : Launch α := ewLaunch 256 nelems fun i => do
  let xi ← ld (α := α) 1 i
  if FP.ltb 0 xi then do
    let d ← ld 0 i
    let g ← ld 2 i
    st 0 i (d + g)
  else pure ()

/-- `src/kernel/scal/cuda.cu:24-61`. -/
def scalCuda (nelems : Nat) (alpha : α) : Launch α := ewLaunch 256 nelems fun i => do
  let x ← ld 1 i
  st 0 i (alpha * x)

/-- `src/kernel/sqrt/cuda.cu:25-48`. -/
def sqrtCuda (nelems : Nat) : Launch α := ewLaunch 256 nelems fun i => do
  let x ← ld (α := α) 1 i
  st 0 i (FP.sqrt x)

/-- `src/kernel/sqrt_inplace/cuda.cu:25-48`. -/
def sqrtInplaceCuda (nelems : Nat) : Launch α := ewLaunch 256 nelems fun i => do
  let x ← ld (α := α) 0 i
  st 0 i (FP.sqrt x)

/-- `src/kernel/accumulate_maxsumexp/cuda.cu:24-79`. -/
def accumulateMaxsumexpCuda (nelems : Nat) : Launch α := ewLaunch 256 nelems fun i => do
  intExpr (2*i+1)
  let ss ← ld (α := α) 1 (2*i+1)
  if FP.eqb ss 0 then pure ()
  else do
    let ds ← ld 0 (2*i+1)
    if FP.eqb ds 0 then do
      let sm ← ld 1 (2*i)
      st 0 (2*i) sm
      let ss ← ld 1 (2*i+1)
      st 0 (2*i+1) ss
    else do
      let dm ← ld 0 (2*i)
      let sm ← ld 1 (2*i)
      if FP.ltb dm sm then do
        let ss ← ld 1 (2*i+1)
        let ds ← ld 0 (2*i+1)
        let dm ← ld 0 (2*i)
        let sm ← ld 1 (2*i)
        st 0 (2*i+1) (ss + ds * FP.exp (dm - sm))
        let sm ← ld 1 (2*i)
        st 0 (2*i) sm
      else do
        let ds ← ld 0 (2*i+1)
        let ss ← ld 1 (2*i+1)
        let sm ← ld 1 (2*i)
        let dm ← ld 0 (2*i)
        st 0 (2*i+1) (ds + ss * FP.exp (sm - dm))

/-- `labels[i] + i*n_labels` as an index. -/
def labelAt (n_labels : Nat) (label : Int) (i : Nat) (f : Nat → PM α Unit) : PM α Unit :=
  if label + i * n_labels < 0 then fun _ => .ub else f (label + i * n_labels).toNat

/-- `src/kernel/subtract_indexed_outputs/cuda.cu:25-54`. -/
def subtractIndexedCuda (asIdx : α → Int) (n_labels n_outputs : Nat) (val : α) : Launch α := ewLaunch 256 n_outputs fun i => do
  let label ← ld 1 i
  labelAt n_labels (asIdx label) i fun o => do
    let x ← ld 0 o
    st 0 o (x - val)

/-- `src/kernel/total_sum_accum/cuda.cu:25-58`. -/
def totalSumAccumCuda (asIdx : α → Int) (alpha : α) (n_labels n_outputs : Nat) : Launch α := ewLaunch 256 n_outputs fun i => do
  let l ← ld 1 i
  let label ← ld 3 i
  labelAt n_labels (asIdx label) i fun o => do
    let x ← ld 2 o
    fun k => .atomicAdd (.glob 0, 0) (alpha * (l - x)) (k ())

/-- The kernels of `adam_step` and `adamw_step`, which differ only in line 38: `prep p_val grad_val` is the pair after lines 36-39. Buffers: 0 `p`, 1 `grad`, 2 `first_moment`,
3 `second_moment`. `src/kernel/adam_step/cuda.cu:25-90`, `src/kernel/adamw_step/cuda.cu:25-90`. -/
def adamLoopCuda (prep : α → α → α × α) (num_iter : Int) (num_elems : Nat) (beta_1 beta_2 eps lr : α) : Launch α :=
  let alpha := lr / (1 - FP.pow beta_1 (FP.ofIndex num_iter))
  let beta := 1 / FP.sqrt (1 - FP.pow beta_2 (FP.ofIndex num_iter))
  ewLaunch 256 num_elems fun i => do
    let p_val ← ld 0 i
    let grad_val ← ld 1 i
    let q := prep p_val grad_val
    let p_val := q.1
    let grad_val := q.2
    if num_iter = 1 then do
      let f_val := (1 - beta_1) * grad_val
      st 2 i f_val
      let s_val := FP.sqrt (1 - beta_2) * FP.fabs grad_val
      st 3 i s_val
      let denom := s_val * beta + eps
      st 0 i (p_val - alpha * f_val / denom)
    else do
      let f_val ← ld 2 i
      let s_val ← ld 3 i
      let f_val := beta_1 * f_val + (1 - beta_1) * grad_val
      st 2 i f_val
      let s_val := FP.hypot (FP.sqrt beta_2 * s_val) (FP.sqrt (1 - beta_2) * grad_val)
      st 3 i s_val
      let denom := s_val * beta + eps
      st 0 i (p_val - alpha * f_val / denom)

/-- `src/kernel/adam_step/cuda.cu:25-90`. -/
def adamCuda (num_iter : Int) (num_elems : Nat) (beta_1 beta_2 eps lr weight_decay : α) : Launch α :=
  adamLoopCuda (fun p_val grad_val => if FP.eqb weight_decay 0 then (p_val, grad_val) else (p_val, grad_val + weight_decay * p_val)) num_iter num_elems beta_1 beta_2 eps lr
/-- `src/kernel/adamw_step/cuda.cu:25-90`. -/
def adamwCuda (num_iter : Int) (num_elems : Nat) (beta_1 beta_2 eps lr weight_decay : α) : Launch α :=
  adamLoopCuda (fun p_val grad_val => if FP.eqb weight_decay 0 then (p_val, grad_val) else (p_val * (1 - lr * weight_decay), grad_val)) num_iter num_elems beta_1 beta_2 eps lr

/-- `src/kernel/transpose/cuda.cu:25-64`; `m` is positive, otherwise no thread is launched. -/
def transposeCuda (m n : Nat) (alpha : α) : Launch α where
  grid := ⟨uint32 (((m*n + 32 - 1) / 32 : Nat) : Int), 1, 1⟩
  threads := ⟨32, 1, 1⟩
  shared := 0
  body t :=
    let i := gidIndex t.thr.x t.blk.x 32
    let j := i / m
    let i := i - j*m
    if i < m ∧ j < n then PM.prog do
      let x ← ld 1 (i + j*m)
      st 0 (i*n + j) (alpha * x)
    else .done

/-- `threads(std::min(int(m), tx), std::min(int(n), ty), std::min(int(k), tz))`, `blocks((m+threads.x-1)/threads.x, (n+threads.y-1)/threads.y, (k+threads.z-1)/threads.z)`, with division by
zero if a size is zero; the kernel computes three indices of type `Index` and checks their ranges. E.g. `src/kernel/add_slice/cuda.cu:43-46,86-90`. -/
def grid3Launch (m n k : Nat) (tx ty tz : Nat) (body : Nat → Nat → Nat → PM α Unit) : M (Launch α) :=
  let bx := uint32 (min (int32 m) tx)
  let bY := uint32 (min (int32 n) ty)
  let bz := uint32 (min (int32 k) tz)
  if bx = 0 ∨ bY = 0 ∨ bz = 0 then .error (.ub "division by zero")
  else .ok {
    grid := ⟨uint32 (((m + bx - 1) / bx : Nat) : Int), uint32 (((n + bY - 1) / bY : Nat) : Int), uint32 (((k + bz - 1) / bz : Nat) : Int)⟩
    threads := ⟨bx, bY, bz⟩
    shared := 0
    body := fun t =>
      let i0 := gidIndex t.thr.x t.blk.x bx
      let i1 := gidIndex t.thr.y t.blk.y bY
      let i2 := gidIndex t.thr.z t.blk.z bz
      if i0 < m ∧ i1 < n ∧ i2 < k then (body i0 i1 i2).prog else .done }

/-- `src/kernel/add_slice/cuda.cu:25-92`. -/
def addSliceCuda (m n k : Nat) (alpha beta : α) : M (Launch α) := grid3Launch m n k 8 8 16 fun i0 i1 i2 => do
  let x ← ld 1 (i1*m + i0)
  let src_val := alpha * x
  if FP.eqb beta 0 then st 0 (i1*(m*k) + i0 + i2*m) src_val
  else do
    let dst_val ← ld 0 (i1*(m*k) + i0 + i2*m)
    st 0 (i1*(m*k) + i0 + i2*m) (beta * dst_val + src_val)

/-- `src/kernel/add_slice3/cuda.cu:25-95`. -/
def addSlice3Cuda (m n k : Nat) (alpha beta : α) : M (Launch α) := grid3Launch m n k 8 8 16 fun i0 i1 i2 => do
  let x ← ld 1 (i1*m + i0)
  let src1_val := alpha * x
  if FP.eqb beta 0 then st 0 (i1*(m*k) + i0 + i2*m) src1_val
  else do
    let y ← ld 2 (i1*(m*k) + i0 + i2*m)
    st 0 (i1*(m*k) + i0 + i2*m) (beta * y + src1_val)

/-- `src/kernel/prod_slice/cuda.cu:25-79`. -/
def prodSliceCuda (m n k : Nat) (alpha : α) : M (Launch α) := grid3Launch m n k 8 8 16 fun i0 i1 i2 => do
  let x ← ld 1 (i1*m + i0)
  let src_val := alpha * x
  let y ← ld 0 (i1*(m*k) + i0 + i2*m)
  st 0 (i1*(m*k) + i0 + i2*m) (y * src_val)

/-- `src/kernel/prod_fiber/cuda.cu:25-77`. -/
def prodFiberCuda (m n k : Nat) (alpha : α) : M (Launch α) := grid3Launch m n k 8 8 16 fun i0 i1 i2 => do
  let x ← ld 1 i2
  let src_val := alpha * x
  let y ← ld 0 ((i1*k + i2)*m + i0)
  st 0 ((i1*k + i2)*m + i0) (y * src_val)

/-- `src/kernel/prod_fiber3/cuda.cu:25-85`. -/
def prodFiber3Cuda (m n k : Nat) (alpha : α) : M (Launch α) := grid3Launch m n k 8 8 16 fun i0 i1 i2 => do
  let x ← ld 1 i2
  let src1_val := alpha * x
  let y ← ld 2 ((i1*k + i2)*m + i0)
  st 0 ((i1*k + i2)*m + i0) (src1_val * y)

/-- `src/kernel/add_fiber/cuda.cu:25-90`. The `x` direction is that of `k`. -/
def addFiberCuda (m n k batch : Nat) (alpha beta : α) : M (Launch α) := grid3Launch k m n 1024 1 1 fun i2 i0 i1 =>
  forP batch (fun b _ => do
    let x ← ld 1 (i2 + b*k)
    let src_val := alpha * x
    let dst_val ← ld 0 (((i1 + b*n)*k + i2)*m + i0)
    st 0 (((i1 + b*n)*k + i2)*m + i0) (beta * dst_val + src_val)) ()

/-- `src/kernel/embedding/cuda.cu:25-82`. -/
def embeddingCuda (asIdx : α → Int) (m n k k_start k_size : Nat) : M (Launch α) := grid3Launch m n k_size 8 8 16 fun i0 i1 i2 => do
  let token ← ld 1 (i1*m + i0)
  if asIdx token < 0 then fun _ => .ub
  else do
    let v ← ld 2 (k_size * (asIdx token).toNat + i2)
    st 0 ((i1*k + k_start + i2)*m + i0) v

/-- `src/kernel/embedding_backward/cuda.cu:24-78`. -/
def embeddingBackwardCuda (asIdx : α → Int) (m n k k_start k_size : Nat) : Launch α where
  grid := ⟨uint32 (((k_size + 255) / 256 : Nat) : Int), uint32 m, uint32 n⟩
  threads := ⟨256, 1, 1⟩
  shared := 0
  body t :=
    let i2 := gidIndex t.thr.x t.blk.x 256
    let i0 := t.blk.y
    let i1 := t.blk.z
    if i2 < k_size then PM.prog do
      let token ← ld 1 (i1*m + i0)
      let e ← ld 2 ((i1*k + k_start + i2)*m + i0)
      if asIdx token < 0 then fun _ => .ub
      else fun k => .atomicAdd (.glob 0, k_size * (asIdx token).toNat + i2) e (k ())
    else .done

/-- `src/kernel/mask_scalar/cuda.cu:24-57`. -/
def maskScalarCuda (asBool : α → Bool) (nrows ncols : Nat) (val : α) : Launch α where
  grid := ⟨uint32 (((nrows + 255) / 256 : Nat) : Int), uint32 ncols, 1⟩
  threads := ⟨256, 1, 1⟩
  shared := 0
  body t :=
    let i := gidInt t.thr.x t.blk.x 256
    let j := gidInt t.thr.y t.blk.y 1
    if i < nrows ∧ j < ncols then if i < 0 ∨ j < 0 then .ub else PM.prog do
      let b ← ld 1 i.toNat
      if asBool b then pure () else st 0 (j.toNat * nrows + i.toNat) val
    else .done

/-- `for(Index i = start; i < n; i += step)` has this many iterations. -/
def strideCount (start n step : Nat) : Nat := (n + step - 1 - start) / step

/-- `src/kernel/pow/cuda.cu:24-50`: a loop with a stride of `blockDim.x * gridDim.x`. -/
def powCuda (nelems : Nat) (alpha exp : α) : Launch α where
  grid := ⟨256, 1, 1⟩
  threads := ⟨256, 1, 1⟩
  shared := 0
  body t :=
    let start := (gidInt t.thr.x t.blk.x 256).toNat
    let step := 256 * 256
    PM.prog (forP (strideCount start nelems step) (fun q _ => do
      let i := start + q * step
      let z ← ld 0 i
      st 0 i (alpha * FP.pow z exp)) ())

/-- Two loops with strides over `i2 < n` and `i1 < m`, `blocks(16, 16), threads(8, 4)`: `src/kernel/sumnorm/cuda.cu:29-39,109-111`, `src/kernel/normalize/cuda.cu:29-42,118-120`. -/
def stride2Launch (n m : Nat) (body : Nat → Nat → PM α Unit) : Launch α where
  grid := ⟨16, 16, 1⟩
  threads := ⟨8, 4, 1⟩
  shared := 0
  body t :=
    let i2_start := gidIndex t.thr.x t.blk.x 8
    let i1_start := gidIndex t.thr.y t.blk.y 4
    let i2_step := 8 * 16
    let i1_step := 4 * 16
    PM.prog (forP (strideCount i2_start n i2_step) (fun q _ =>
      forP (strideCount i1_start m i1_step) (fun r _ => body (i2_start + q * i2_step) (i1_start + r * i1_step)) ()) ())

/-- `src/kernel/sumnorm/cuda.cu:24-112`; the body of the loop over the slice is the same as on CPU. -/
def sumnormCuda (m n k : Nat) : Launch α := stride2Launch n m fun i2 i1 => do
  let sum ← ld (α := α) 0 (2*(i1 + i2*m))
  let scale ← ld 0 (2*(i1 + i2*m) + 1)
  let p ← forP k (fun i0 p => do
    let val ← ld 1 (i2*(m*k) + i1 + i0*m)
    pure (snStep val p)) (⟨sum, scale, 1⟩ : SnAcc α)
  st 0 (2*(i1 + i2*m)) p.sum
  st 0 (2*(i1 + i2*m) + 1) (p.scale * FP.sqrt p.ssq)

/-- `src/kernel/normalize/cuda.cu:24-121`; the computation of the value is the same as on CPU. Lines 81-83 write `val` twice: the first value is read again by the same thread. -/
def normalizeCuda (m n k : Nat) (l : Int) (eps : α) : Launch α := stride2Launch n k fun i2 i1 =>
  forP m (fun i0 _ => do
    let sum ← ld (α := α) 2 (2*m*i2 + 2*i0)
    let norm ← ld 2 (2*m*i2 + 2*i0 + 1)
    let invl := 1 / FP.ofIndex l
    let rinvl := FP.sqrt invl
    let reps := FP.sqrt eps
    let mean := sum * invl
    let rms := norm * rinvl
    let dev := normalizeDev mean rms reps
    let val ← ld 0 ((i2*k + i1)*m + i0)
    st 0 ((i2*k + i1)*m + i0) ((val - mean) / dev)
    let val ← ld 0 ((i2*k + i1)*m + i0)
    let gamma ← ld 1 0
    let beta ← ld 1 1
    st 0 ((i2*k + i1)*m + i0) (val * gamma + beta)) ()

end NNTile
