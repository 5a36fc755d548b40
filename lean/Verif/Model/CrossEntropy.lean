import Verif.Model.Reduce
/-!
# `total_sum_accum`, `subtract_indexed_outputs`

`asIdx` says how a cell of the integer tensor `labels` is read. The range of the labels is not checked by the code.
-/
namespace NNTile
variable {α : Type}

/-- The address `labels[i] + i*n_labels`, which is out of bounds if it is negative. -/
def labelOff (n_labels : Nat) (label : Int) (i : Nat) : M Nat :=
  if label + i * n_labels < 0 then .error (.ub "negative offset") else .ok (label + i * n_labels).toNat

/-- `src/kernel/total_sum_accum/cpu.cc:27-62`. -/
def totalSumAccumKernel [FP α] (asIdx : α → Int) (alpha : α) (n_labels n_outputs : Nat) (logsumexp src labels val : Buf α) : M (Buf α) := do
  let p ← forN n_outputs (fun i p => do
    let x ← logsumexp.rd i
    let p := kahan x p
    let label ← labels.rd i
    let o ← labelOff n_labels (asIdx label) i
    let y ← src.rd o
    .ok (kahan (- y) p)) ((0 : α), (0 : α))
  let v ← val.rd 0
  val.wr 0 ((v - alpha * p.2) + alpha * p.1)

/-- `src/kernel/subtract_indexed_outputs/cpu.cc:26-46`. -/
def subtractIndexedKernel [FP α] (asIdx : α → Int) (n_labels n_outputs : Nat) (val : α) (labels dst : Buf α) : M (Buf α) :=
  forN n_outputs (fun i dst => do
    let label ← labels.rd i
    let o ← labelOff n_labels (asIdx label) i
    let x ← dst.rd o
    dst.wr o (x - val)) dst

/-- `starpu::total_sum_accum::submit`, `src/starpu/total_sum_accum.cc:123-145`; the mode is `STARPU_RW | STARPU_COMMUTE`, see `C23_total_sum_accum`. -/
def submitTotalSumAccum [FP α] (asIdx : α → Int) (alpha : α) (n_labels n_outputs : Nat) (logsumexp src labels val : Handle) : Task1 α :=
  { codelet := "total_sum_accum", reads := [logsumexp, src, labels], out := val, mode := .RW
    fn := fun rs b => match rs with
      | [l, x, w] => totalSumAccumKernel asIdx alpha n_labels n_outputs l x w b
      | _ => .error (.ub "wrong number of buffers") }

/-- `starpu::subtract_indexed_outputs::submit`, `src/starpu/subtract_indexed_outputs.cc:119-141`. -/
def submitSubtractIndexed [FP α] (asIdx : α → Int) (n_labels n_outputs : Nat) (val : α) (labels dst : Handle) : Task1 α :=
  task1 "subtract_indexed_outputs" labels .RW dst (fun w d => subtractIndexedKernel asIdx n_labels n_outputs val w d)

/-- `total_sum_accum_async`, `src/tensor/total_sum_accum.cc:26-94`. -/
def totalSumAccumAsync [FP α] (asIdx : α → Int) (alpha : α) (logsumexp src labels val : Tensor) : M (List (Task1 α)) := do
  throwIf (logsumexp.ndim ≠ labels.ndim) "logsumexp.ndim != labels.ndim"
  throwIf (logsumexp.ndim + 1 ≠ src.ndim) "logsumexp.ndim != src.ndim-1"
  throwIf (val.ndim ≠ 0) "val.ndim != 0"
  forCheck labels.ndim (fun i => do
    checkPair logsumexp labels i i
    checkPair labels src i (i + 1))
  let b ← vget src.basetile 0
  let n ← vget src.shape 0
  throwIf (b ≠ n) "src.basetile_shape[0] != src.shape[0]"
  let val_tile_handle ← val.handleL 0
  forTasks labels.ntiles (fun i => do
    let logsumexp_tile_handle ← logsumexp.handleL i
    let labels_tile_handle ← labels.handleL i
    let src_tile_handle ← src.handleL i
    .ok [submitTotalSumAccum asIdx alpha n (logsumexp.tshapeL i).prod logsumexp_tile_handle src_tile_handle labels_tile_handle val_tile_handle])

/-- `subtract_indexed_outputs_async`, `src/tensor/subtract_indexed_outputs.cc:24-68`. -/
def subtractIndexedAsync [FP α] (asIdx : α → Int) (val : α) (labels dst : Tensor) : M (List (Task1 α)) := do
  throwIf (labels.ndim + 1 ≠ dst.ndim) "labels.ndim != dst.ndim-1"
  forCheck labels.ndim (fun i => checkPair labels dst i (i + 1))
  let n ← vget dst.shape 0
  let b ← vget dst.basetile 0
  throwIf (n ≠ b) "dst.shape[0] != dst.basetile_shape[0]"
  forTasks dst.ntiles (fun i => do
    let labels_tile_handle ← labels.handleL i
    let dst_tile_handle ← dst.handleL i
    .ok [submitSubtractIndexed asIdx n (labels.tshapeL i).prod val labels_tile_handle dst_tile_handle])

end NNTile
