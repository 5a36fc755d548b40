import Verif.Spec.Layer
import Mathlib.Algebra.BigOperators.Group.List.Basic
/-!
# Networks of layers and backpropagation

A network is a list of layers. A layer reads some tensors (activations and parameters), has one output tensor and possibly temporary tensors. The *meaning* of a layer is
a function `F` from the contents of the tensors to the contents of the output. The contents of the tensors of a network are given by `Env`, by the identity of the tensor.
-/
namespace NNTile
open Finset

/-- Contents of tensors, by their identity (that of the value tensor). -/
abbrev Env := Nat → List Nat → ℝ

/-- `c` is a differentiable curve of contents of the tensors `ms` through the contents `env` with velocity `h` at time `0`. Only tensors which require gradients vary. -/
def CurveAt (ms : List Moments) (env : Env) (c : ℝ → Env) (h : Env) : Prop :=
  ∀ m ∈ ms, c 0 m.value.id = env m.value.id ∧
    (m.gradRequired = true → ∀ J ∈ box m.value.shape, HasDerivAt (fun t => c t m.value.id J) (h m.value.id J) 0) ∧
    (m.gradRequired = false → ∀ t, c t m.value.id = env m.value.id)

/-- Scalar product over the tensors `ms` which require gradients. -/
noncomputable def dotGrads (ms : List Moments) (g h : Env) : ℝ :=
  (ms.map fun m => if m.gradRequired then ∑ J ∈ box m.value.shape, g m.value.id J * h m.value.id J else 0).sum

/-- `g` is the result of applying the transposed Jacobian of `F` (all tensors `ins` taken together) at the point `env` to `dy`: along each differentiable curve `F` is
differentiable and the derivative `D` satisfies `⟨dy, D⟩ = ⟨g, h⟩`. -/
def IsVJP (ins : List Moments) (Sy : List Nat) (F : Env → List Nat → ℝ) (env : Env) (dy : List Nat → ℝ) (g : Env) : Prop :=
  ∀ c h, CurveAt ins env c h →
    ∃ D : List Nat → ℝ, (∀ I ∈ box Sy, HasDerivAt (fun t => F (c t) I) (D I) 0) ∧ ∑ I ∈ box Sy, dy I * D I = dotGrads ins g h

/-- A layer with its meaning. -/
structure NetLayer where
  /-- the tensors it reads -/
  ins : List Moments
  /-- its output -/
  out : Moments
  /-- its temporary tensors -/
  temps : List Tensor
  /-- `forward_async` and `backward_async` -/
  forward : M (List (Task1 ℝ))
  backward : M (List (Task1 ℝ))
  /-- the meaning -/
  F : Env → List Nat → ℝ
  /-- what forward propagation leaves in the temporary tensors for backward propagation -/
  Saved : Env → Store ℝ → Prop
  /-- contents for which forward propagation is defined -/
  Valid : Env → Prop
  /-- contents at which `F` is differentiable -/
  Regular : Env → Prop

/-- The tensors `ms` are registered and have the contents `env`. -/
def ValuesHold (ms : List Moments) (s : Store ℝ) (env : Env) : Prop := ∀ m ∈ ms, m.value.Ready s ∧ m.value.Holds s (env m.value.id)

/-- The gradients of `ms` which are required are registered and have the contents `g`. -/
def GradsHold (ms : List Moments) (s : Store ℝ) (g : Env) : Prop := ∀ m ∈ ms, m.GradHolds s (g m.value.id)

def AllReady (ts : List Tensor) (s : Store ℝ) : Prop := ∀ T ∈ ts, T.Ready s

/-- The layer computes what it means: forward propagation computes `F`, whatever the contents of the output and the temporary tensors, and changes nothing else; backward
propagation afterwards adds the product of the transposed Jacobian of `F` and the gradient `dy` of the output to the gradients of the tensors the layer reads, and changes
nothing else (except temporary tensors). -/
structure NetLayer.Correct (l : NetLayer) : Prop where
  required : l.out.gradRequired = true
  nodup : (l.ins.map fun m => m.value.id).Nodup
  localF : ∀ env env' : Env, (∀ m ∈ l.ins, env m.value.id = env' m.value.id) → l.F env = l.F env'
  localS : ∀ env env' : Env, (∀ m ∈ l.ins, env m.value.id = env' m.value.id) → ∀ s, l.Saved env s → l.Saved env' s
  localR : ∀ env env' : Env, (∀ m ∈ l.ins, env m.value.id = env' m.value.id) → l.Regular env → l.Regular env'
  keep : ∀ env s s' ids, OnlyChanged ids s s' → (∀ T ∈ l.temps, T.id ∉ ids) → l.Saved env s → l.Saved env s'
  forward : ∀ s env, l.Valid env → ValuesHold l.ins s env → AllReady (l.out.value :: l.temps) s →
    Runs l.forward s (l.out.value.id :: l.temps.map Tensor.id) (fun s' =>
      l.out.value.Holds s' (l.F env) ∧ AllReady (l.out.value :: l.temps) s' ∧ l.Saved env s')
  backward : ∀ s env dy g0, l.Regular env → ValuesHold l.ins s env → l.Saved env s → AllReady l.temps s →
    l.out.grad.Ready s → l.out.grad.Holds s dy → GradsHold l.ins s g0 →
    Runs l.backward s (l.ins.flatMap Moments.gradIds ++ l.temps.map Tensor.id) (fun s' =>
      AllReady l.temps s' ∧ ∃ g : Env, GradsHold l.ins s' (fun i J => g0 i J + g i J) ∧ IsVJP l.ins l.out.value.shape l.F env dy g)

/-- Identities of the value and (if required) the gradient. -/
def Moments.ids (m : Moments) : List Nat := m.value.id :: m.gradIds

/-- Identities of all tensors of a layer: values, gradients (if required) and temporary tensors. -/
def NetLayer.ids (l : NetLayer) : List Nat := l.ins.flatMap Moments.ids ++ l.out.ids ++ l.temps.map Tensor.id

/-- The layers can be executed in the given order: each layer reads only tensors which are given or outputs of layers before it. -/
def Ordered (given : List Moments) : List NetLayer → Prop
  | [] => True
  | l :: ls => (∀ m ∈ l.ins, m ∈ given) ∧ Ordered (l.out :: given) ls

/-- Identities of all tensors of a network: values, gradients (if required) and temporary tensors. -/
def netIds (given : List Moments) (ls : List NetLayer) : List Nat :=
  given.flatMap Moments.ids ++ ls.flatMap (fun l => l.out.ids ++ l.temps.map Tensor.id)

/-- The contents of all tensors defined by the contents of the given ones. -/
noncomputable def netEnv (env : Env) : List NetLayer → Env
  | [] => env
  | l :: ls => netEnv (Function.update env l.out.value.id (l.F env)) ls

/-- Forward propagation of all layers is defined at the contents they get. -/
def NetValid (env : Env) : List NetLayer → Prop
  | [] => True
  | l :: ls => l.Valid env ∧ NetValid (Function.update env l.out.value.id (l.F env)) ls

/-- All layers are differentiable at the contents they get. -/
def NetRegular (env : Env) : List NetLayer → Prop
  | [] => True
  | l :: ls => l.Regular env ∧ NetRegular (Function.update env l.out.value.id (l.F env)) ls

/-- Forward and backward propagation of a network, `wrappers/python/nntile/model/base_model.py` (`forward_async`, `backward_async`). -/
def netForward (ls : List NetLayer) : M (List (Task1 ℝ)) := seqAsync (ls.map NetLayer.forward)
def netBackward (ls : List NetLayer) : M (List (Task1 ℝ)) := seqAsync (ls.reverse.map NetLayer.backward)

/-- `g` is the result of applying the transposed Jacobian of the whole network (as a function of all `given` tensors, all of the outputs `ls.map out` being results) to
`dy` (one gradient for each output). -/
def IsNetVJP (given : List Moments) (ls : List NetLayer) (env dy g : Env) : Prop :=
  ∀ c h, CurveAt given env c h →
    ∃ D : Env, (∀ l ∈ ls, ∀ I ∈ box l.out.value.shape, HasDerivAt (fun t => netEnv (c t) ls l.out.value.id I) (D l.out.value.id I) 0) ∧
      (ls.map fun l => ∑ I ∈ box l.out.value.shape, dy l.out.value.id I * D l.out.value.id I).sum = dotGrads given g h

end NNTile
