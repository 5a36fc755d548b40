import Verif.Model.Maxsumexp
import Verif.Model.Elementwise
/-!
# `sumnorm` and `normalize`
-/
namespace NNTile
variable {α : Type}

/-- Local variables `sum`, `scale`, `ssq` of `src/kernel/sumnorm/cpu.cc:64-66`. -/
structure SnAcc (α : Type) where
  sum : α
  scale : α
  ssq : α

/-- Body of the loop over the slice, `src/kernel/sumnorm/cpu.cc:70-90`. -/
def snStep [FP α] (val : α) (p : SnAcc α) : SnAcc α :=
  if FP.eqb val 0 then p
  else
    let absval := FP.fabs val
    if FP.ltb p.scale absval then
      let tmp := p.scale / absval
      ⟨p.sum + val, absval, p.ssq*tmp*tmp + 1⟩
    else
      let tmp := absval / p.scale
      ⟨p.sum + val, p.scale, p.ssq + tmp*tmp⟩

/-- `src/kernel/sumnorm/cpu.cc:25-100`. `dst_offset` starts at zero and is increased by two in each of the inner steps, so it is `2*(i2*m+i1)`. -/
def sumnormKernel [FP α] (m n k : Nat) (src sumnorm : Buf α) : M (Buf α) :=
  forN n (fun i2 sumnorm =>
    forN m (fun i1 sumnorm => do
      let sum ← sumnorm.rd (2*(i2*m + i1))
      let scale ← sumnorm.rd (2*(i2*m + i1) + 1)
      let p ← forN k (fun i0 p => do
        let val ← src.rd (i2*(m*k) + i1 + i0*m)
        .ok (snStep val p)) (⟨sum, scale, 1⟩ : SnAcc α)
      let sumnorm ← sumnorm.wr (2*(i2*m + i1)) p.sum
      sumnorm.wr (2*(i2*m + i1) + 1) (p.scale * FP.sqrt p.ssq)) sumnorm) sumnorm

/-- `starpu::sumnorm::submit`, `src/starpu/sumnorm.cc:111-139`. -/
def submitSumnorm [FP α] (m n k : Nat) (src dst : Handle) : Task1 α :=
  task1 "sumnorm" src .RW dst (fun a b => sumnormKernel m n k a b)

/-- `sumnorm_async`, `src/tensor/sumnorm.cc:24-132`. -/
def sumnormAsync [FP α] (src dst : Tensor) (axis : Int) : M (List (Task1 α)) := do
  throwIf (src.ndim ≠ dst.ndim) "src.ndim != dst.ndim"
  throwIf (src.ndim = 0) "Scalar input makes no sense"
  throwIf (axis < 0) "axis < 0"
  throwIf (axis ≥ src.ndim) "axis >= src.ndim"
  let d0 ← vget dst.shape 0
  throwIf (d0 ≠ 2) "dst.shape[0] != 2"
  let b0 ← vget dst.basetile 0
  throwIf (b0 ≠ 2) "dst.basetile_shape[0] != 2"
  let a := axis.toNat
  checkMse src dst a
  forTasks dst.ntiles (fun i => do
    let dst_tile_handle ← dst.handleL i
    let g ← vget src.grid a
    let ts ← forTasks g (fun j => do
      let src_tile_index := mseTileIndex (dst.tindex i) a j
      let src_tile_handle ← src.handleAt src_tile_index
      let S ← src.tshapeAt src_tile_index
      .ok [submitSumnorm (mOf S a) (nOf S a) (kOf S a) src_tile_handle dst_tile_handle])
    .ok (submitClear dst_tile_handle :: ts))

/-- The deviation, `src/kernel/normalize/cpu.cc:71-95`. `tmp >= one` is false if `tmp` is NaN. -/
def normalizeDev [FP α] (mean rms reps : α) : α :=
  let tmp := FP.fabs mean / rms
  if FP.ltb 1 tmp || FP.eqb tmp 1 then reps
  else if FP.ltb reps rms then
    let ssq := 1 - tmp*tmp
    let tmp2 := reps / rms
    rms * FP.sqrt (ssq + tmp2*tmp2)
  else
    let ssq := 1 - tmp*tmp
    let tmp2 := rms / reps
    reps * FP.sqrt (ssq * (tmp2*tmp2) + 1)

/-- The new value of an element, `src/kernel/normalize/cpu.cc:51-53,64-70,96-99`. -/
def normalizeVal [FP α] (l : Int) (eps gamma beta sum norm val : α) : α :=
  let invl := 1 / FP.ofIndex l
  let rinvl := FP.sqrt invl
  let reps := FP.sqrt eps
  let mean := sum * invl
  let rms := norm * rinvl
  (val - mean) / normalizeDev mean rms reps * gamma + beta

/-- `src/kernel/normalize/cpu.cc:25-106`. `dst_offset` is increased by one in each of the inner steps, so it is `(i2*k+i1)*m+i0`.
`gamma` and `beta` point to the two elements of `gamma_beta`, `src/starpu/normalize.cc:33-40`. -/
def normalizeKernel [FP α] (m n k : Nat) (l : Int) (eps : α) (gamma_beta sumnorm dst : Buf α) : M (Buf α) :=
  forN n (fun i2 dst => forN k (fun i1 dst => forN m (fun i0 dst => do
    let val ← dst.rd ((i2*k + i1)*m + i0)
    let sum ← sumnorm.rd (2*m*i2 + 2*i0)
    let norm ← sumnorm.rd (2*m*i2 + 2*i0 + 1)
    let gamma ← gamma_beta.rd 0
    let beta ← gamma_beta.rd 1
    dst.wr ((i2*k + i1)*m + i0) (normalizeVal l eps gamma beta sum norm val)) dst) dst) dst

/-- `starpu::normalize::submit`, `src/starpu/normalize.cc:118-150`. -/
def submitNormalize [FP α] (m n k : Nat) (l : Int) (eps : α) (gamma_beta sumnorm dst : Handle) : Task1 α :=
  task2 "normalize" gamma_beta sumnorm .RW dst (fun a b d => normalizeKernel m n k l eps a b d)

/-- `normalize_async`, `src/tensor/normalize.cc:23-178`. -/
def normalizeAsync [FP α] (gamma_beta src dst : Tensor) (l : Int) (eps : α) (axis : Int) : M (List (Task1 α)) := do
  throwIf (gamma_beta.shape.length ≠ 1) "gamma_beta.shape.size() != 1"
  let g0 ← vget gamma_beta.shape 0
  throwIf (g0 ≠ 2) "gamma_beta.shape[0] != 2"
  throwIf (gamma_beta.ntiles ≠ 1) "gamma_beta.grid.nelems != 1"
  throwIf (src.ndim ≠ dst.ndim) "src.ndim != dst.ndim"
  throwIf (src.ndim = 0) "src.ndim == 0"
  throwIf (l ≤ 0) "l <= 0"
  throwIf ((FP.ltb eps 0 || FP.eqb eps 0) = true) "eps <= 0"
  throwIf (axis < 0) "axis < 0"
  throwIf (axis ≥ dst.ndim) "axis >= dst.ndim"
  let d0 ← vget src.shape 0
  throwIf (d0 ≠ 2) "src.shape[0] != 2"
  let b0 ← vget src.basetile 0
  throwIf (b0 ≠ 2) "src.basetile_shape[0] != 2"
  let a := axis.toNat
  checkMse dst src a
  let gamma_beta_handle ← gamma_beta.handleL 0
  forTasks src.ntiles (fun i => do
    let src_tile_handle ← src.handleL i
    let g ← vget dst.grid a
    forTasks g (fun j => do
      let dst_tile_index := mseTileIndex (src.tindex i) a j
      let dst_tile_handle ← dst.handleAt dst_tile_index
      let S ← dst.tshapeAt dst_tile_index
      .ok [submitNormalize (mOf S a) (nOf S a) (kOf S a) l eps gamma_beta_handle src_tile_handle dst_tile_handle]))

end NNTile
