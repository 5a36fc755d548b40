import Verif.Spec.Ops
import Verif.Spec.RealFP
/-!
# The Adam and AdamW recurrences and what a training run is
-/
namespace NNTile
noncomputable section

/-- Hyper-parameters. -/
structure AdamParams where
  beta_1 : ℝ
  beta_2 : ℝ
  eps : ℝ
  lr : ℝ
  weight_decay : ℝ

/-- `0 <= beta < 1` and `eps > 0`. -/
structure AdamParams.Valid (h : AdamParams) : Prop where
  beta_1_nonneg : 0 ≤ h.beta_1
  beta_1_lt : h.beta_1 < 1
  beta_2_nonneg : 0 ≤ h.beta_2
  beta_2_lt : h.beta_2 < 1
  eps_pos : 0 < h.eps

/-- One parameter with its first and (standard, not square-rooted) second moment. -/
structure AdamState where
  theta : ℝ
  m : ℝ
  v : ℝ

/-- The bias-corrected update `lr * m̂ / (sqrt v̂ + eps)` after `k` steps. -/
def adamUpdate (h : AdamParams) (k : ℕ) (m v : ℝ) : ℝ :=
  h.lr * (m / (1 - h.beta_1 ^ k)) / (Real.sqrt (v / (1 - h.beta_2 ^ k)) + h.eps)

/-- Adam (Kingma, Ba) with L2 regularisation added to the gradient; `g k` is the gradient of step `k+1`; moments start from zero. -/
def adamRec (h : AdamParams) (g : ℕ → ℝ) (theta0 : ℝ) : ℕ → AdamState
  | 0 => ⟨theta0, 0, 0⟩
  | k + 1 =>
    let s := adamRec h g theta0 k
    let gk := g k + h.weight_decay * s.theta
    let m := h.beta_1 * s.m + (1 - h.beta_1) * gk
    let v := h.beta_2 * s.v + (1 - h.beta_2) * gk ^ 2
    ⟨s.theta - adamUpdate h (k + 1) m v, m, v⟩

/-- AdamW (Loshchilov, Hutter): decoupled weight decay. -/
def adamwRec (h : AdamParams) (g : ℕ → ℝ) (theta0 : ℝ) : ℕ → AdamState
  | 0 => ⟨theta0, 0, 0⟩
  | k + 1 =>
    let s := adamwRec h g theta0 k
    let m := h.beta_1 * s.m + (1 - h.beta_1) * g k
    let v := h.beta_2 * s.v + (1 - h.beta_2) * g k ^ 2
    ⟨s.theta - h.lr * h.weight_decay * s.theta - adamUpdate h (k + 1) m v, m, v⟩

/-- The four tensors of the optimizer are different tensors of the same shape, cut into tiles in the same way. -/
structure AdamFit (grad m v p : Tensor) : Prop where
  grad_like : grad.Like p
  m_like : m.Like p
  v_like : v.Like p
  grad_m : grad.id ≠ m.id
  grad_v : grad.id ≠ v.id
  m_v : m.id ≠ v.id

/-- The program has brought a gradient `x` into `grad` without touching the optimizer's tensors. -/
structure NewGradient (grad m v p : Tensor) (x : List Nat → ℝ) (s s' : Store ℝ) : Prop where
  keeps_p : ∀ i, s' (p.id, i) = s (p.id, i)
  keeps_m : ∀ i, s' (m.id, i) = s (m.id, i)
  keeps_v : ∀ i, s' (v.id, i) = s (v.id, i)
  ready : grad.Ready s'
  holds : grad.Holds s' x

/-- `Trained step grad m v p g s0 k s`: `s` is a store that can be reached from `s0` by `k` rounds, in round `k` (from 1) of which the
program stores the gradient `g (k-1)` and then calls `step k` and all of the submitted tasks are executed. -/
inductive Trained (step : Int → M (List (Task ℝ))) (grad m v p : Tensor) (g : ℕ → List Nat → ℝ) (s0 : Store ℝ) : ℕ → Store ℝ → Prop
  | start : Trained step grad m v p g s0 0 s0
  | round {k : ℕ} {s s' s'' : Store ℝ} {tasks : List (Task ℝ)} (prev : Trained step grad m v p g s0 k s)
      (grads : NewGradient grad m v p (g k) s s') (accepted : step (k + 1 : ℕ) = .ok tasks) (ran : runAll tasks s' = .ok s'') :
      Trained step grad m v p g s0 (k + 1) s''

end
end NNTile
