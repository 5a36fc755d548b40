import Verif.Model.Pipeline
import Verif.Spec.BaseModel
import Verif.Spec.Loss
import Verif.Spec.Optim
/-!
# Training

The mathematical description: a network with the loss function `L` behind it is a function of the parameters; training with batches follows the update rule of the
optimizer with the gradient of the loss of the whole batch.
-/
namespace NNTile
noncomputable section

/-- Contents of the input and of the expected output. -/
abbrev Sample := (List Nat → ℝ) × (List Nat → ℝ)

/-- The loss of one minibatch with the parameters `θ`: the network is evaluated at the input `d.1` (contents of the tensor `a0`). -/
def miniLoss (net : List NetLayer) (L : NetLoss) (a0 : Nat) (d : Sample) (θ : Env) : ℝ := L.f d.2 (netEnv (Function.update θ a0 d.1) net L.x.value.id)

/-- The loss of a batch: the sum over its minibatches. -/
def batchLoss (net : List NetLayer) (L : NetLoss) (a0 : Nat) (b : List Sample) (θ : Env) : ℝ := (b.map fun d => miniLoss net L a0 d θ).sum

/-- What the loss function reports after the batch: the loss of the batch, or that of the last minibatch only if the values are not added. -/
def lossValue (net : List NetLayer) (L : NetLoss) (a0 : Nat) (b : List Sample) (θ : Env) : ℝ :=
  if L.accumulates then batchLoss net L a0 b θ else (b.map fun d => miniLoss net L a0 d θ).getLastD 0

/-- The partial derivatives of the loss of a batch. -/
def batchGrad (net : List NetLayer) (L : NetLoss) (a0 : Nat) (b : List Sample) (θ : Env) : Env :=
  fun i J => deriv (fun t => batchLoss net L a0 b (θ.shift i J t)) 0

/-- Parameters and auxiliary states of the optimizer. -/
structure TrainPoint (R : OptRule) where
  θ : Env
  aux : Nat → List Nat → R.Aux

/-- Step `k` (from 0) of the optimizer with the batch `b`: each element of the tensors `params` is updated by the rule with its partial derivative. -/
def trainNext (net : List NetLayer) (L : NetLoss) (a0 : Nat) (R : OptRule) (params : List Nat) (k : Nat) (b : List Sample) (pt : TrainPoint R) : TrainPoint R where
  θ := fun i J => if i ∈ params then (R.step k (pt.θ i J) (batchGrad net L a0 b pt.θ i J) (pt.aux i J)).1 else pt.θ i J
  aux := fun i J => (R.step k (pt.θ i J) (batchGrad net L a0 b pt.θ i J) (pt.aux i J)).2

/-- Training with a list of batches: the final point, and the loss of each batch before its step. -/
def trainRun (net : List NetLayer) (L : NetLoss) (a0 : Nat) (R : OptRule) (params : List Nat) : Nat → List (List Sample) → TrainPoint R → TrainPoint R × List ℝ
  | _, [], pt => (pt, [])
  | k, b :: bs, pt =>
    let r := trainRun net L a0 R params (k + 1) bs (trainNext net L a0 R params k b pt)
    (r.1, batchLoss net L a0 b pt.θ :: r.2)

/-- All functions are defined and differentiable at the point. -/
def BatchValid (net : List NetLayer) (L : NetLoss) (a0 : Nat) (b : List Sample) (θ : Env) : Prop :=
  ∀ d ∈ b, NetValid (Function.update θ a0 d.1) net ∧ NetRegular (Function.update θ a0 d.1) net ∧ L.Valid d.2

/-- This is so at all points of the training. -/
def TrainValid (net : List NetLayer) (L : NetLoss) (a0 : Nat) (R : OptRule) (params : List Nat) : Nat → List (List Sample) → TrainPoint R → Prop
  | _, [], _ => True
  | k, b :: bs, pt => BatchValid net L a0 b pt.θ ∧ TrainValid net L a0 R params (k + 1) bs (trainNext net L a0 R params k b pt)

/-! ### Pipelines -/

def PyLoss.toNet (asIdx : ℝ → Int) : PyLoss ℝ → NetLoss
  | .frob l => l.toNet
  | .crossEntropy l => l.toNet asIdx

def PyLoss.Fits : PyLoss ℝ → Prop
  | .frob l => l.Fits
  | .crossEntropy l => (∃ n, l.Fits n) ∧ l.modelOutput.gradRequired = true

/-- The optimizer `Empty` leaves all parameters as they are. -/
def emptyOpt : NetOpt := ⟨[], [], fun _ => .ok [], ⟨Unit, (), fun _ θ _ _ => (θ, ())⟩, fun _ _ _ => True⟩

def PyOpt.toNet (invalidate : Bool) : PyOpt ℝ → NetOpt
  | .empty => emptyOpt
  | .sgd o => o.toNet
  | .adam o => o.toNet
  | .fusedAdam o => o.toNetAdam invalidate
  | .fusedAdamW o => o.toNetAdamW invalidate

/-- The tensors of the optimizer fit the parameters. `Adam` with `amsgrad` is left out, see C43. -/
def PyOpt.Fits : PyOpt ℝ → Prop
  | .empty => True
  | .sgd o => o.Fits
  | .adam o => o.Fits ∧ o.hyper.Valid ∧ o.amsgrad = false
  | .fusedAdam o => o.Fits ∧ o.hyper.Valid
  | .fusedAdamW o => o.Fits ∧ o.hyper.Valid

/-- The parts of the pipeline fit: the layers are a network with the inputs and parameters `given`; `acts` are the activations, the first of them the input `a0`; the
loss function reads the output of a layer; the optimizer has parameters of the model; all tensors are different. -/
structure Pipeline.Fits (p : Pipeline ℝ) (asIdx : ℝ → Int) (invalidate : Bool) (given : List Moments) (a0 : Moments) (acts : List Moments)
    (layers : List (PyLayer ℝ)) : Prop where
  model : p.model = BaseModel.init acts layers
  network : IsNetwork asIdx invalidate given layers
  input : acts.head? = some a0
  inputGiven : a0 ∈ given
  actsIn : ∀ m ∈ acts, m ∈ given ++ (netOf asIdx invalidate layers).map NetLayer.out
  actsNodup : (acts.map fun m => m.value.id).Nodup
  outs : ∀ l ∈ netOf asIdx invalidate layers, l.out ∈ acts
  params : ∀ m ∈ layers.flatMap PyLayer.parameters, m ∈ given ∧ m ∉ acts ∧ m.gradRequired = true ∧ m.grad.shape = m.value.shape
  paramsNodup : ((layers.flatMap PyLayer.parameters).map fun m => m.value.id).Nodup
  required : ∀ m ∈ given, m.gradRequired = true → m ∈ layers.flatMap PyLayer.parameters ∨ m ∈ acts
  loss : p.loss.Fits
  lossIn : (p.loss.toNet asIdx).x ∈ (netOf asIdx invalidate layers).map NetLayer.out
  opt : p.opt.Fits
  optParams : ∀ m ∈ (p.opt.toNet invalidate).params, m ∈ layers.flatMap PyLayer.parameters
  ids : (netIds given (netOf asIdx invalidate layers) ++ (((p.loss.toNet asIdx).y :: (p.loss.toNet asIdx).val :: (p.loss.toNet asIdx).temps).map Tensor.id ++
    (p.opt.toNet invalidate).tensors.map Tensor.id)).Nodup
  data : ∀ b ∈ p.x.zip p.y, ∀ d ∈ b.1.zip b.2, (d.1.shape = a0.value.shape ∧ d.1.basetile = a0.value.basetile) ∧
    (d.2.shape = p.loss.y.shape ∧ d.2.basetile = p.loss.y.basetile) ∧
    ∀ T ∈ [d.1, d.2], T.id ∉ netIds given (netOf asIdx invalidate layers) ++ (((p.loss.toNet asIdx).y :: (p.loss.toNet asIdx).val :: (p.loss.toNet asIdx).temps).map Tensor.id ++
      (p.opt.toNet invalidate).tensors.map Tensor.id)

/-- The contents of tensors between two batches, after `k` steps of the optimizer: all tensors are registered, the parameters (and further inputs) and the auxiliary states of
the optimizer are those of `pt`, the data are `D`. Nothing is said about the contents of the activations, of the gradients and of the tensors of the loss function. -/
structure Pipeline.State (p : Pipeline ℝ) (asIdx : ℝ → Int) (invalidate : Bool) (given : List Moments) (a0 : Moments) (layers : List (PyLayer ℝ)) (D : Env) (k : Nat)
    (pt : TrainPoint (p.opt.toNet invalidate).rule) (s : Store ℝ) : Prop where
  ready : NetReady given (netOf asIdx invalidate layers) s
  values : ∀ m ∈ given, m.value.id ≠ a0.value.id → m.value.Holds s (pt.θ m.value.id)
  loss : AllReady ((p.loss.toNet asIdx).y :: (p.loss.toNet asIdx).val :: (p.loss.toNet asIdx).temps) s
  opt : (p.opt.toNet invalidate).Saved k pt.aux s
  data : ∀ b ∈ p.x.zip p.y, ∀ d ∈ b.1.zip b.2, ∀ T ∈ [d.1, d.2], T.Ready s ∧ T.Holds s (D T.id)

/-- The contents of a batch of data. -/
def samples (D : Env) (b : List Tensor × List Tensor) : List Sample := (b.1.zip b.2).map fun d => (D d.1.id, D d.2.id)

end
end NNTile
