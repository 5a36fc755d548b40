import Verif.Model.Reduce
/-!
# `maxsumexp`, `accumulate_maxsumexp`, `softmax`, `softmax_inplace`, `logsumexp`
-/
namespace NNTile
variable {α : Type}

/-- Local variables `max`, `sum`, `c` of `src/kernel/maxsumexp/cpu.cc:61-62`. -/
structure MseAcc (α : Type) where
  max : α
  sum : α
  c : α

/-- Body of the loop over the slice, `src/kernel/maxsumexp/cpu.cc:66-92`. -/
def mseStep [FP α] (val : α) (p : MseAcc α) : MseAcc α :=
  if FP.isInf val then p
  else if FP.ltb p.max val then
    let tmp := FP.exp (p.max - val)
    let y := 1 - p.c * tmp
    let sum := p.sum * tmp
    let t := sum + y
    ⟨val, t, (t - sum) - y⟩
  else
    let y := FP.exp (val - p.max) - p.c
    let t := p.sum + y
    ⟨p.max, t, (t - p.sum) - y⟩

/-- Saving of the result, `src/kernel/maxsumexp/cpu.cc:94-126`. -/
def mseStore [FP α] (off : Nat) (p : MseAcc α) (dst : Buf α) : M (Buf α) :=
  if FP.isInf p.max then .ok dst
  else do
    let sum_old ← dst.rd (off+1)
    if FP.eqb sum_old 0 then do
      let dst ← dst.wr off p.max
      dst.wr (off+1) p.sum
    else do
      let max_old ← dst.rd off
      if FP.ltb max_old p.max then do
        let dst ← dst.wr off p.max
        let dst ← dst.wr (off+1) (sum_old * FP.exp (max_old - p.max) + p.sum)
        let y := sum_old * FP.exp (max_old - p.max) - p.c
        dst.wr (off+1) (p.sum + y)
      else do
        let dst ← dst.wr (off+1) (p.sum * FP.exp (p.max - max_old) + sum_old)
        let tmp := FP.exp (p.max - max_old)
        let y := sum_old - p.c * tmp
        let sum := p.sum * tmp
        dst.wr (off+1) (sum + y)

/-- `src/kernel/maxsumexp/cpu.cc:24-130`. `dst_offset` starts at zero and is increased by two in each of the inner steps, so it is `2*(i2*m+i1)`. -/
def maxsumexpKernel [FP α] (m n k : Nat) (src dst : Buf α) : M (Buf α) :=
  forN n (fun i2 dst =>
    forN m (fun i1 dst => do
      let x0 ← src.rd (i2*(m*k) + i1)
      let p ← forN (k - 1) (fun i p => do
        let val ← src.rd (i2*(m*k) + i1 + (i+1)*m)
        .ok (mseStep val p)) (⟨x0, 1, 0⟩ : MseAcc α)
      mseStore (2*(i2*m + i1)) p dst) dst) dst

/-- `starpu::maxsumexp::submit`, `src/starpu/maxsumexp.cc:112-149`. -/
def submitMaxsumexp [FP α] (m n k : Nat) (src dst : Handle) (redux : Bool) : Task1 α :=
  task1 "maxsumexp" src (if redux then .REDUX else .RW) dst (fun a b => maxsumexpKernel m n k a b)

/-- `for(i < axis)` compare dimension `i` of `A` with `i+1` of `B`, `for(axis < i < A.ndim)` compare dimension `i` of both,
`src/tensor/maxsumexp.cc:56-79`, `src/tensor/softmax.cc:59-82`, `src/tensor/softmax_inplace.cc:55-78`. -/
def checkMse (A B : Tensor) (axis : Nat) : M Unit := do
  forCheck axis (fun i => checkPair A B i (i+1))
  forCheck (A.ndim - (axis + 1)) (fun i => checkPair A B (axis + 1 + i) (axis + 1 + i))

/-- Index of the tile of `src` for a tile of pairs with grid index `t` and number `j` along the axis, `src/tensor/maxsumexp.cc:90-106`,
`src/tensor/softmax.cc:105-118`. -/
def mseTileIndex (t : List Nat) (axis j : Nat) : List Nat := t.tail.insertIdx axis j

/-- `maxsumexp_async`, `src/tensor/maxsumexp.cc:24-128`. -/
def maxsumexpAsync [FP α] (src dst : Tensor) (axis : Int) (redux : Bool) : M (List (Task1 α)) := do
  throwIf (src.ndim ≠ dst.ndim) "src.ndim != dst.ndim"
  throwIf (src.ndim = 0) "Scalar input makes no sense"
  throwIf (axis < 0) "axis < 0"
  throwIf (axis ≥ src.ndim) "axis >= src.ndim"
  let d0 ← vget dst.shape 0
  throwIf (d0 ≠ 2) "dst.shape[0] != 2"
  let b0 ← vget dst.basetile 0
  throwIf (b0 ≠ 2) "dst.basetile_shape[0] != 2"
  let a := axis.toNat
  checkMse src dst a
  forTasks dst.ntiles (fun i => do
    let dst_tile_handle ← dst.handleL i
    let g ← vget src.grid a
    forTasks g (fun j => do
      let src_tile_index := mseTileIndex (dst.tindex i) a j
      let src_tile_handle ← src.handleAt src_tile_index
      let S ← src.tshapeAt src_tile_index
      .ok [submitMaxsumexp (mOf S a) (nOf S a) (kOf S a) src_tile_handle dst_tile_handle redux]))

/-- `src/kernel/accumulate_maxsumexp/cpu.cc:25-60`. -/
def accumulateMaxsumexpKernel [FP α] (nelems : Nat) (src dst : Buf α) : M (Buf α) :=
  forN nelems (fun i dst => do
    let ss ← src.rd (2*i+1)
    if FP.eqb ss 0 then .ok dst
    else do
      let ds ← dst.rd (2*i+1)
      if FP.eqb ds 0 then do
        let sm ← src.rd (2*i)
        let dst ← dst.wr (2*i) sm
        dst.wr (2*i+1) ss
      else do
        let dm ← dst.rd (2*i)
        let sm ← src.rd (2*i)
        if FP.ltb dm sm then do
          let dst ← dst.wr (2*i+1) (ss + ds * FP.exp (dm - sm))
          dst.wr (2*i) sm
        else
          dst.wr (2*i+1) (ds + ss * FP.exp (sm - dm))) dst

end NNTile
