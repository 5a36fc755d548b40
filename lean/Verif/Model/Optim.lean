import Verif.Model.Layer
import Verif.Model.Axpy
import Verif.Model.Copy
import Verif.Model.Adam
/-!
# Model of the optimizers, `wrappers/python/nntile/optimizer/`

`num_iter`, the only attribute that a step changes, is an argument of the models of `step`: it is the initial value (0 for `SGD`, 1 for the others) plus the number of
steps made before. Python floats are numbers of the type `α` of the tensors. `wont_use` does nothing.
-/
namespace NNTile
variable {α : Type}

/-- Consecutive statements (tasks of any kind). -/
def seqTasks : List (M (List (Task α))) → M (List (Task α))
  | [] => .ok []
  | p :: ps => do
    let t ← p
    let ts ← seqTasks ps
    .ok (t ++ ts)

/-- Submission of tasks with one result. -/
def liftTasks (p : M (List (Task1 α))) : M (List (Task α)) := do
  let t ← p
  .ok (t.map Task1.toTask)

/-- Element `i` of a Python list of tensors. -/
def pyTensor (l : List Tensor) (i : Nat) : M Tensor := match l[i]? with
  | some T => .ok T
  | none => .error (.throw "IndexError")

/-- One new tensor for each parameter, of the shape and tiling of its value. -/
def newStates (next : Nat) : List Moments → M (List Tensor)
  | [] => .ok []
  | p :: ps => do
    let T ← newTensor next p.value.shape p.value.basetile
    let Ts ← newStates (next + 1) ps
    .ok (T :: Ts)

/-! ### `sgd.py` -/

/-- The attributes, `wrappers/python/nntile/optimizer/sgd.py:23-43`. -/
structure SGD (α : Type) where
  params : List Moments
  nesterov : Bool
  lr : α
  momentum : α
  weightDecay : α
  damping : α
  states : List Tensor

/-- `SGD.__init__`, `wrappers/python/nntile/optimizer/sgd.py:20-43`. -/
def SGD.init [FP α] (params : List Moments) (lr : α) (next : Nat) (momentum : α) (nesterov : Bool) (weightDecay damping : α) : M (SGD α) := do
  let states ← if FP.ltb 0 momentum then newStates next params else .ok []
  .ok ⟨params, nesterov, lr, momentum, weightDecay, damping, states⟩

/-- Body of the loop of `SGD.step`, `wrappers/python/nntile/optimizer/sgd.py:55-68`. -/
def SGD.stepParam [FP α] (o : SGD α) (numIter : Nat) (p : Moments) (i : Nat) : M (List (Task1 α)) := seqAsync [
  whenAsync (!FP.eqb o.weightDecay 0) (axpyScalarAsync o.weightDecay p.value p.grad),
  whenAsync (FP.ltb 0 o.momentum) (do
    let state ← pyTensor o.states i
    seqAsync [
      if numIter = 0 then copyAsync p.grad state
      else seqAsync [scalInplaceAsync o.momentum state, axpyScalarAsync (1 - o.damping) p.grad state],
      if o.nesterov then axpyScalarAsync o.momentum state p.grad else copyAsync state p.grad]),
  axpyScalarAsync (-o.lr) p.grad p.value]

/-- `SGD.step`, `wrappers/python/nntile/optimizer/sgd.py:53-69`. -/
def SGD.stepAsync [FP α] (o : SGD α) (numIter : Nat) : M (List (Task1 α)) :=
  seqAsync (o.params.zipIdx.map fun p => o.stepParam numIter p.1 p.2)

/-! ### `adam.py`, `adamw.py` -/

/-- The attributes of `FusedAdam` and `FusedAdamW`, `wrappers/python/nntile/optimizer/adam.py:157-180`, `adamw.py:22-45`. `warmup` is the pair
`(start_lr, full_lr_iter)` if both are given. -/
structure Fused (α : Type) where
  params : List Moments
  firstMoments : List Tensor
  secondMoments : List Tensor
  lr : α
  warmup : Option (α × Int)
  beta1 : α
  beta2 : α
  weightDecay : α
  eps : α

/-- Loop of `__init__` of both classes, `wrappers/python/nntile/optimizer/adam.py:166-173`, `adamw.py:31-38`: first and second moments are created alternately. -/
def newMoments (next : Nat) : List Moments → M (List Tensor × List Tensor)
  | [] => .ok ([], [])
  | p :: ps => do
    let m ← newTensor next p.value.shape p.value.basetile
    let v ← newTensor (next + 1) p.value.shape p.value.basetile
    let r ← newMoments (next + 2) ps
    .ok (m :: r.1, v :: r.2)

/-- `FusedAdam.__init__`, `wrappers/python/nntile/optimizer/adam.py:157-180`, and `FusedAdamW.__init__`, `adamw.py:22-45`. -/
def Fused.init (params : List Moments) (lr : α) (next : Nat) (beta1 beta2 weightDecay eps : α) (warmup : Option (α × Int)) : M (Fused α) := do
  let r ← newMoments next params
  .ok ⟨params, r.1, r.2, lr, warmup, beta1, beta2, weightDecay, eps⟩

/-- `cur_lr`, `wrappers/python/nntile/optimizer/adam.py:191-195`, `adamw.py:56-60`. -/
def Fused.curLr [FP α] (o : Fused α) (numIter : Int) : α := match o.warmup with
  | none => o.lr
  | some (startLr, fullLrIter) =>
    if numIter < fullLrIter ∧ fullLrIter > 1 then
      (o.lr - startLr) / FP.ofIndex (fullLrIter - 1) * FP.ofIndex (numIter - 1) + startLr
    else o.lr

/-- `step` of both classes with the step function `step` of C++, `wrappers/python/nntile/optimizer/adam.py:190-207`, `adamw.py:55-72`. `fused_adam_step` and
`fused_adamw_step` (`wrappers/python/nntile/tensor.py:778-810`) pass the arguments in the order of the C++ function. -/
def Fused.step [FP α] (step : Int → α → α → α → α → α → Tensor → Tensor → Tensor → Tensor → M (List (Task α))) (invalidate : Bool) (o : Fused α) (numIter : Int) :
    M (List (Task α)) :=
  seqTasks (o.params.zipIdx.map fun p => do
    let m ← pyTensor o.firstMoments p.2
    let v ← pyTensor o.secondMoments p.2
    seqTasks [step numIter o.beta1 o.beta2 o.eps (o.curLr numIter) o.weightDecay p.1.grad m v p.1.value, liftTasks (invalidateAsync invalidate p.1.grad)])

/-- `FusedAdam.step` and `FusedAdamW.step`. -/
def Fused.adamStep [FP α] (invalidate : Bool) (o : Fused α) (numIter : Int) : M (List (Task α)) := o.step adamStepAsync invalidate numIter
def Fused.adamwStep [FP α] (invalidate : Bool) (o : Fused α) (numIter : Int) : M (List (Task α)) := o.step adamwStepAsync invalidate numIter

/-- The attributes of `Adam`, `wrappers/python/nntile/optimizer/adam.py:22-48`. -/
structure Adam (α : Type) where
  params : List Moments
  firstMoments : List Tensor
  secondMoments : List Tensor
  maxSecondMoments : List Tensor
  amsgrad : Bool
  lr : α
  beta1 : α
  beta2 : α
  weightDecay : α
  eps : α

/-- Loop of `Adam.__init__`, `wrappers/python/nntile/optimizer/adam.py:32-43`. -/
def newMoments3 (amsgrad : Bool) (next : Nat) : List Moments → M (List Tensor × List Tensor × List Tensor)
  | [] => .ok ([], [], [])
  | p :: ps => do
    let m ← newTensor next p.value.shape p.value.basetile
    let v ← newTensor (next + 1) p.value.shape p.value.basetile
    let w ← if amsgrad then (do
      let w ← newTensor (next + 2) p.value.shape p.value.basetile
      .ok [w]) else .ok []
    let r ← newMoments3 amsgrad (next + 3) ps
    .ok (m :: r.1, v :: r.2.1, w ++ r.2.2)

/-- `Adam.__init__`, `wrappers/python/nntile/optimizer/adam.py:22-48`. -/
def Adam.init (params : List Moments) (lr : α) (next : Nat) (beta1 beta2 : α) (amsgrad : Bool) (weightDecay eps : α) : M (Adam α) := do
  let r ← newMoments3 amsgrad next params
  .ok ⟨params, r.1, r.2.1, r.2.2, amsgrad, lr, beta1, beta2, weightDecay, eps⟩

/-- Body of the loop of `Adam.step`, `wrappers/python/nntile/optimizer/adam.py:62-98`. -/
def Adam.stepParam [FP α] (o : Adam α) (numIter : Nat) (p : Moments) (i : Nat) : M (List (Task1 α)) := do
  let m ← pyTensor o.firstMoments i
  let v ← pyTensor o.secondMoments i
  let stepSize := -o.lr / (1 - FP.pow o.beta1 (FP.ofIndex numIter))
  let scaleFactor := FP.sqrt (1 - FP.pow o.beta2 (FP.ofIndex numIter))
  seqAsync [
    whenAsync (!FP.eqb o.weightDecay 0) (axpyScalarAsync o.weightDecay p.value p.grad),
    if numIter = 1 then seqAsync [clearAsync m, addAsync (1 - o.beta1) p.grad 0 m] else addAsync (1 - o.beta1) p.grad o.beta1 m,
    whenAsync (numIter = 1) (clearAsync v),
    whenAsync (numIter = 1 ∧ o.amsgrad) (do
      let w ← pyTensor o.maxSecondMoments i
      clearAsync w),
    hypotAsync (FP.sqrt (1 - o.beta2)) p.grad (FP.sqrt o.beta2) v,
    if o.amsgrad then do
      let w ← pyTensor o.maxSecondMoments i
      seqAsync [maximumAsync v w, addcdivAsync (stepSize / scaleFactor) (o.eps * scaleFactor) m w p.value]
    else addcdivAsync (stepSize * scaleFactor) (o.eps * scaleFactor) m v p.value]

/-- `Adam.step`, `wrappers/python/nntile/optimizer/adam.py:60-99`. -/
def Adam.stepAsync [FP α] (o : Adam α) (numIter : Nat) : M (List (Task1 α)) :=
  seqAsync (o.params.zipIdx.map fun p => o.stepParam numIter p.1 p.2)

/-! ### All optimizers -/

/-- An optimizer object (`Empty`: `wrappers/python/nntile/optimizer/empty.py:18-30`). -/
inductive PyOpt (α : Type) where
  | empty
  | sgd (o : SGD α)
  | adam (o : Adam α)
  | fusedAdam (o : Fused α)
  | fusedAdamW (o : Fused α)

/-- `opt.step()` after `k` steps. -/
def PyOpt.step [FP α] (invalidate : Bool) : PyOpt α → Nat → M (List (Task α))
  | .empty, _ => .ok []
  | .sgd o, k => liftTasks (o.stepAsync k)
  | .adam o, k => liftTasks (o.stepAsync (k + 1))
  | .fusedAdam o, k => o.adamStep invalidate (k + 1 : Nat)
  | .fusedAdamW o, k => o.adamwStep invalidate (k + 1 : Nat)

end NNTile
