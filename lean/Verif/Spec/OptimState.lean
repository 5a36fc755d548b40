import Verif.Model.OptimState
import Verif.Spec.Numpy
import Verif.Spec.Optim
/-!
# States of optimizers
-/
namespace NNTile
variable {α : Type}

/-- Tensor `i` of the list has the contents `x i`. -/
def TensorsHold (Ts : List Tensor) (x : Nat → List Nat → α) (s : Store α) : Prop := ∀ (i : Nat) (T : Tensor), Ts[i]? = some T → T.Holds s (x i)

/-- All tensors are registered. -/
def TensorsReady (Ts : List Tensor) (s : Store α) : Prop := ∀ T ∈ Ts, T.Ready s

/-- The moments of an optimizer: as many second as first moments, all of them different tensors of at least one dimension, registered in `s`. -/
structure MomentTensors (first second : List Tensor) (s : Store α) : Prop where
  len : second.length = first.length
  ids : ((first ++ second).map Tensor.id).Nodup
  ready : TensorsReady (first ++ second) s
  dims : ∀ T ∈ first ++ second, T.shape ≠ []

/-- The moments of two optimizers have the same shapes (their tiles may be different). -/
def SameShapes (first second first' second' : List Tensor) : Prop :=
  first'.map Tensor.shape = first.map Tensor.shape ∧ second'.map Tensor.shape = second.map Tensor.shape

/-- The rounding of `dtype`; the original type is `"fp32"`. -/
def TorchTypes.rounding (t : TorchTypes α) (dtype : String) : α → α :=
  if dtype = "fp16" then t.float16 else if dtype = "bf16" then t.bfloat16 else fun x => x

/-- The optimizer `o` with the hyperparameters of `h`. -/
def Adam.withHyper (o h : Adam α) : Adam α := { o with lr := h.lr, beta1 := h.beta1, beta2 := h.beta2, eps := h.eps, weightDecay := h.weightDecay }
def Fused.withHyper (o h : Fused α) : Fused α := { o with lr := h.lr, warmup := h.warmup, beta1 := h.beta1, beta2 := h.beta2, eps := h.eps, weightDecay := h.weightDecay }

end NNTile
