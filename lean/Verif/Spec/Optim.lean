import Verif.Spec.Network
import Verif.Spec.Adam
import Verif.Model.Optim
/-!
# Optimizers: update rules for one number, and what it means that an optimizer follows a rule
-/
namespace NNTile
noncomputable section

/-- As `Runs`, for tasks of any kind. -/
def RunsT {α : Type} (async : M (List (Task α))) (s : Store α) (ids : List Nat) (P : Store α → Prop) : Prop :=
  ∃ tasks s', async = .ok tasks ∧ runAll tasks s = .ok s' ∧ OnlyChanged ids s s' ∧ P s'

/-- An update rule for one parameter (a real number) with an auxiliary state. -/
structure OptRule where
  Aux : Type
  /-- the auxiliary state before the first step -/
  init : Aux
  /-- `step k θ g a`: new parameter and auxiliary state after step `k` (from 0) with the gradient `g` -/
  step : ℕ → ℝ → ℝ → Aux → ℝ × Aux

/-- Gradient descent with momentum `mu`, L2 regularisation `wd` and dampening `tau`, as in PyTorch (`torch.optim.SGD`). -/
def sgdRule (lr mu wd tau : ℝ) (nesterov : Bool) : OptRule where
  Aux := ℝ
  init := 0
  step := fun k θ g b =>
    let g := g + wd * θ
    if 0 < mu then
      let b := if k = 0 then g else mu * b + (1 - tau) * g
      (θ - lr * (if nesterov then g + mu * b else b), b)
    else (θ - lr * g, b)

/-- Adam with a learning rate `lr k` in step `k` (from 1). The auxiliary state are the two moments. -/
def adamRule (h : AdamParams) (lr : ℕ → ℝ) : OptRule where
  Aux := ℝ × ℝ
  init := (0, 0)
  step := fun k θ g a =>
    let g := g + h.weight_decay * θ
    let m := h.beta_1 * a.1 + (1 - h.beta_1) * g
    let v := h.beta_2 * a.2 + (1 - h.beta_2) * g ^ 2
    (θ - adamUpdate { h with lr := lr (k + 1) } (k + 1) m v, (m, v))

/-- AdamW with a learning rate `lr k` in step `k` (from 1). -/
def adamwRule (h : AdamParams) (lr : ℕ → ℝ) : OptRule where
  Aux := ℝ × ℝ
  init := (0, 0)
  step := fun k θ g a =>
    let m := h.beta_1 * a.1 + (1 - h.beta_1) * g
    let v := h.beta_2 * a.2 + (1 - h.beta_2) * g ^ 2
    (θ - lr (k + 1) * h.weight_decay * θ - adamUpdate { h with lr := lr (k + 1) } (k + 1) m v, (m, v))

/-- AMSGrad (Reddi, Kale, Kumar) as in PyTorch, with a learning rate `lr k` in step `k` (from 1): the largest second moment so far takes the place of the second
moment. -/
def amsgradRule (h : AdamParams) (lr : ℕ → ℝ) : OptRule where
  Aux := ℝ × ℝ × ℝ
  init := (0, 0, 0)
  step := fun k θ g a =>
    let g := g + h.weight_decay * θ
    let m := h.beta_1 * a.1 + (1 - h.beta_1) * g
    let v := h.beta_2 * a.2.1 + (1 - h.beta_2) * g ^ 2
    let w := max a.2.2 v
    (θ - adamUpdate { h with lr := lr (k + 1) } (k + 1) m w, (m, v, w))

/-- Linear increase of the learning rate from `start` in step 1 to `lr` in step `full`, constant afterwards. -/
def warmupLr (start lr : ℝ) (full : ℕ) (k : ℕ) : ℝ := if k < full then start + (lr - start) * (k - 1) / (full - 1) else lr

/-- An optimizer with its meaning. -/
structure NetOpt where
  params : List Moments
  /-- its own tensors -/
  tensors : List Tensor
  /-- `step()` after `k` steps -/
  step : Nat → M (List (Task ℝ))
  rule : OptRule
  /-- how the auxiliary states are stored after `k` steps -/
  Saved : Nat → (Nat → List Nat → rule.Aux) → Store ℝ → Prop

/-- The tensors of the parameters: values and gradients. -/
def paramTensors (params : List Moments) : List Tensor := params.flatMap fun p => [p.value, p.grad]

/-- The optimizer follows its rule: from the parameters `θ`, the gradients `g` and the auxiliary states `a` of all elements each step computes what the rule says for each
element, the gradients need not be kept, and changes nothing else. Any contents of its own tensors are good enough for the first step. -/
structure NetOpt.Correct (o : NetOpt) : Prop where
  keep : ∀ k a s s' ids, OnlyChanged ids s s' → (∀ T ∈ o.tensors, T.id ∉ ids) → o.Saved k a s → o.Saved k a s'
  init : ∀ s, AllReady o.tensors s → o.Saved 0 (fun _ _ => o.rule.init) s
  step : ∀ k s (θ g : Env) a, AllReady (paramTensors o.params) s → (∀ p ∈ o.params, p.value.Holds s (θ p.value.id) ∧ p.grad.Holds s (g p.value.id)) →
    o.Saved k a s →
    RunsT (o.step k) s ((paramTensors o.params ++ o.tensors).map Tensor.id) (fun s' =>
      AllReady (paramTensors o.params) s' ∧
      (∀ p ∈ o.params, p.value.Holds s' (fun J => (o.rule.step k (θ p.value.id J) (g p.value.id J) (a p.value.id J)).1)) ∧
      o.Saved (k + 1) (fun i J => (o.rule.step k (θ i J) (g i J) (a i J)).2) s')

/-! ### The optimizers -/

/-- The lists `tens` of tensors of an optimizer fit the parameters: one tensor like the value for each parameter; all tensors are different. -/
structure OptFits (params : List Moments) (tens : List (List Tensor)) : Prop where
  ids : ((paramTensors params ++ tens.flatten).map Tensor.id).Nodup
  grad : ∀ p ∈ params, p.grad.shape = p.value.shape ∧ p.grad.basetile = p.value.basetile
  len : ∀ l ∈ tens, l.length = params.length
  like : ∀ l ∈ tens, ∀ pT ∈ params.zip l, pT.2.shape = pT.1.value.shape ∧ pT.2.basetile = pT.1.value.basetile

/-- `SGD` keeps a state per parameter only with positive momentum. -/
def SGD.Fits (o : SGD ℝ) : Prop := OptFits o.params (if 0 < o.momentum then [o.states] else [])

def SGD.toNet (o : SGD ℝ) : NetOpt where
  params := o.params
  tensors := if 0 < o.momentum then o.states else []
  step := fun k => liftTasks (o.stepAsync k)
  rule := sgdRule o.lr o.momentum o.weightDecay o.damping o.nesterov
  Saved := fun k a s => 0 < o.momentum → ∀ pT ∈ o.params.zip o.states, pT.2.Ready s ∧ (k ≠ 0 → pT.2.Holds s (a pT.1.value.id))

/-! Adam -/

/-- The moments are stored: the first moments, and the square roots of the second moments. Before the first step the contents do not matter. -/
def MomentsSaved (params : List Moments) (first second : List Tensor) (k : Nat) (a : Nat → List Nat → ℝ × ℝ) (s : Store ℝ) : Prop :=
  ∀ (i : Nat) (p : Moments) (m v : Tensor), params[i]? = some p → first[i]? = some m → second[i]? = some v → m.Ready s ∧ v.Ready s ∧
    (∀ J, 0 ≤ (a p.value.id J).2) ∧
    (k = 0 → ∀ J, a p.value.id J = (0, 0)) ∧
    (k ≠ 0 → m.Holds s (fun J => (a p.value.id J).1) ∧ v.Holds s (fun J => Real.sqrt (a p.value.id J).2))

def Fused.hyper (o : Fused ℝ) : AdamParams := ⟨o.beta1, o.beta2, o.eps, o.lr, o.weightDecay⟩

/-- The learning rate: constant, or with warmup. -/
def Fused.schedule (o : Fused ℝ) (k : ℕ) : ℝ := match o.warmup with
  | none => o.lr
  | some w => warmupLr w.1 o.lr w.2.toNat k

def Fused.Fits (o : Fused ℝ) : Prop := OptFits o.params [o.firstMoments, o.secondMoments]

def Fused.toNetAdam (invalidate : Bool) (o : Fused ℝ) : NetOpt where
  params := o.params
  tensors := o.firstMoments ++ o.secondMoments
  step := fun k => o.adamStep invalidate (k + 1 : Nat)
  rule := adamRule o.hyper o.schedule
  Saved := MomentsSaved o.params o.firstMoments o.secondMoments

def Fused.toNetAdamW (invalidate : Bool) (o : Fused ℝ) : NetOpt where
  params := o.params
  tensors := o.firstMoments ++ o.secondMoments
  step := fun k => o.adamwStep invalidate (k + 1 : Nat)
  rule := adamwRule o.hyper o.schedule
  Saved := MomentsSaved o.params o.firstMoments o.secondMoments

def Adam.hyper (o : Adam ℝ) : AdamParams := ⟨o.beta1, o.beta2, o.eps, o.lr, o.weightDecay⟩

def Adam.Fits (o : Adam ℝ) : Prop :=
  OptFits o.params (if o.amsgrad then [o.firstMoments, o.secondMoments, o.maxSecondMoments] else [o.firstMoments, o.secondMoments])

/-- `Adam` without `amsgrad`. -/
def Adam.toNet (o : Adam ℝ) : NetOpt where
  params := o.params
  tensors := o.firstMoments ++ o.secondMoments
  step := fun k => liftTasks (o.stepAsync (k + 1))
  rule := adamRule o.hyper fun _ => o.lr
  Saved := MomentsSaved o.params o.firstMoments o.secondMoments

/-- All three moments are stored, square roots of the second and the largest second moments. -/
def Moments3Saved (params : List Moments) (first second maxSecond : List Tensor) (k : Nat) (a : Nat → List Nat → ℝ × ℝ × ℝ) (s : Store ℝ) : Prop :=
  ∀ (i : Nat) (p : Moments) (m v w : Tensor), params[i]? = some p → first[i]? = some m → second[i]? = some v → maxSecond[i]? = some w →
    m.Ready s ∧ v.Ready s ∧ w.Ready s ∧
    (∀ J, 0 ≤ (a p.value.id J).2.1 ∧ 0 ≤ (a p.value.id J).2.2) ∧
    (k = 0 → ∀ J, a p.value.id J = (0, 0, 0)) ∧
    (k ≠ 0 → m.Holds s (fun J => (a p.value.id J).1) ∧ v.Holds s (fun J => Real.sqrt (a p.value.id J).2.1) ∧ w.Holds s (fun J => Real.sqrt (a p.value.id J).2.2))

/-- `Adam` with `amsgrad`, and the learning rate `lr k` in step `k` (from 1). -/
def Adam.toNetAmsgrad (o : Adam ℝ) (lr : ℕ → ℝ) : NetOpt where
  params := o.params
  tensors := o.firstMoments ++ (o.secondMoments ++ o.maxSecondMoments)
  step := fun k => liftTasks (o.stepAsync (k + 1))
  rule := amsgradRule o.hyper lr
  Saved := Moments3Saved o.params o.firstMoments o.secondMoments o.maxSecondMoments

end
end NNTile
