import Verif.Model.Runtime
import Verif.Model.Pipeline
/-!
# The training loop as a program which runs beside the workers, `wrappers/python/nntile/pipeline.py:41-95`

`train_async` submits the tasks of a batch; then `loss.get_val` (`wrappers/python/nntile/loss/crossentropy.py:76-77`) calls `to_array` for the value of the loss, which is a tensor without dimensions: the
only tile is acquired, copied and released (`wrappers/python/nntile/nntile_core.cc:286-296`). Other tensors are not read. Not modelled: `wont_use`, `print`.
-/
namespace NNTile
variable {α : Type}

/-- What the main thread does for one batch; `seen` is what it finds in the memory of the loss. -/
def Pipeline.batchMain [FP α] (asIdx : α → Int) (invalidate : Bool) (p : Pipeline α) (k : Nat) (b : List Tensor × List Tensor) (seen : Buf α) : M (List (RtEvent α)) := do
  let ts ← p.batch asIdx invalidate k b
  .ok (asyncOp ts ++ [.acquire (p.loss.val.id, 0) .R, .peek (p.loss.val.id, 0) seen, .release (p.loss.val.id, 0) .R])

/-- What the main thread does for a list of batches; `k` steps of the optimizer were made before. -/
def Pipeline.trainMain [FP α] (asIdx : α → Int) (invalidate : Bool) (p : Pipeline α) : Nat → List ((List Tensor × List Tensor) × Buf α) → M (List (RtEvent α))
  | _, [] => .ok []
  | k, b :: bs => do
    let m ← p.batchMain asIdx invalidate k b.1 b.2
    let ms ← p.trainMain asIdx invalidate (k + 1) bs
    .ok (m ++ ms)

end NNTile
