import Verif.Model.Numpy
import Verif.Model.BaseModel
import Verif.Model.Loss
import Verif.Model.Optim
/-!
# Model of the training loop, `wrappers/python/nntile/pipeline.py`

`wont_use` and `print` do nothing. Tasks are executed in the order of submission (any schedule gives the same result, C26).
-/
namespace NNTile
variable {α : Type}

/-- A loss function object. -/
inductive PyLoss (α : Type) where
  | frob (l : Frob)
  | crossEntropy (l : CrossEntropy α)

/-- The attributes `y` and `val`. -/
def PyLoss.y : PyLoss α → Tensor
  | .frob l => l.y
  | .crossEntropy l => l.y
def PyLoss.val : PyLoss α → Tensor
  | .frob l => l.val
  | .crossEntropy l => l.val

/-- `loss.calc_async()`. -/
def PyLoss.calcAsync [FP α] (asIdx : α → Int) : PyLoss α → M (List (Task1 α))
  | .frob l => l.calcAsync
  | .crossEntropy l => l.calcAsync asIdx

/-- `loss.get_val(array)`, `wrappers/python/nntile/loss/crossentropy.py:76-77`; the class `Frob` (`wrappers/python/nntile/loss/frob.py`) has no such method. -/
def PyLoss.getVal (tmpId : Nat) (array : NpArray α) (s : Store α) : PyLoss α → M (NpArray α × Store α)
  | .frob _ => .error (.throw "AttributeError")
  | .crossEntropy l => toArray l.val tmpId array s

/-- The attributes, `wrappers/python/nntile/pipeline.py:23-29,33-39`. -/
structure Pipeline (α : Type) where
  x : List (List Tensor)
  y : List (List Tensor)
  model : BaseModel α
  opt : PyOpt α
  loss : PyLoss α
  nEpochs : Nat

/-- `self.model.activations[0].value`. -/
def Pipeline.input (p : Pipeline α) : M Tensor := match p.model.activations with
  | [] => .error (.throw "IndexError")
  | .list _ :: _ => .error (.throw "AttributeError")
  | .moments m :: _ => .ok m.value

/-- Loop over minibatches, `wrappers/python/nntile/pipeline.py:53-69`. -/
def Pipeline.minibatch [FP α] (asIdx : α → Int) (invalidate : Bool) (p : Pipeline α) (d : Tensor × Tensor) : M (List (Task1 α)) := seqAsync [
  p.model.clearActivationsGrads,
  do
    let a ← p.input
    copyAsync d.1 a,
  p.model.forwardAsync asIdx invalidate,
  copyAsync d.2 p.loss.y,
  p.loss.calcAsync asIdx,
  p.model.backwardAsync asIdx invalidate]

/-- One batch, before the value of the loss is read, `wrappers/python/nntile/pipeline.py:48-73`; `k` steps of the optimizer were made before. -/
def Pipeline.batch [FP α] (asIdx : α → Int) (invalidate : Bool) (p : Pipeline α) (k : Nat) (b : List Tensor × List Tensor) : M (List (Task α)) := seqTasks [
  liftTasks p.model.clearParametersGrads,
  liftTasks (clearAsync p.loss.val),
  liftTasks (seqAsync ((b.1.zip b.2).map (p.minibatch asIdx invalidate))),
  p.opt.step invalidate k]

/-- What changes during training: contents of tensors, number of steps of the optimizer, `loss_hist`. -/
structure TrainState (α : Type) where
  store : Store α
  steps : Nat
  lossHist : List α

/-- One batch, `wrappers/python/nntile/pipeline.py:46-87`. -/
def Pipeline.trainBatch [FP α] (asIdx : α → Int) (invalidate : Bool) (tmpId : Nat) (p : Pipeline α) (st : TrainState α) (b : List Tensor × List Tensor) :
    M (TrainState α) := do
  let tasks ← p.batch asIdx invalidate st.steps b
  let s ← runAll tasks st.store
  let r ← p.loss.getVal tmpId ⟨[1], Buf.ofList [0]⟩ s
  let v ← r.1.data.rd 0
  .ok ⟨r.2, st.steps + 1, st.lossHist ++ [v]⟩

/-- `Pipeline.train_async`, `wrappers/python/nntile/pipeline.py:41-95`. -/
def Pipeline.trainAsync [FP α] (asIdx : α → Int) (invalidate : Bool) (tmpId : Nat) (p : Pipeline α) (st : TrainState α) : M (TrainState α) :=
  forN p.nEpochs (fun _ st => (p.x.zip p.y).foldlM (p.trainBatch asIdx invalidate tmpId) st) st

end NNTile
