import Mathlib.Data.List.Basic
/-!
# Start and end of StarPU: the class `Config`, `include/nntile/starpu/config.hh:57-117`

StarPU itself is not part of `/repo`. Modelled is its documented behaviour: `starpu_init` may be called several times, and as many calls of `starpu_shutdown` are needed to end it; one call more than there were
of `starpu_init` fails an assertion of StarPU (`abort`). cuBLAS counts in the same way, and its calls need StarPU to be initialized.

Simplifications: output is not modelled; the parameters of the configuration but `cublas` are not modelled; `cuda` says whether the library is compiled with `NNTILE_USE_CUDA`.
-/
namespace NNTile.Conf

/-- Calls of StarPU. -/
inductive Call where
  | init
  | cublasInit
  | cublasShutdown
  | shutdown
  deriving DecidableEq, Repr

/-- State of StarPU: successful calls of `starpu_init` minus calls of `starpu_shutdown`, the same for cuBLAS, and all calls so far. The objects of class `Config` in the order of their construction: `none` if
destroyed, else the member `cublas`. -/
structure World where
  count : Nat
  cublas : Nat
  objects : List (Option Int)
  log : List Call
  deriving DecidableEq, Repr

/-- The beginning of a program. -/
def World.start : World := ⟨0, 0, [], []⟩

/-- How an operation ends: normally, by an exception, in a failed assertion of StarPU, or in undefined behaviour (use of a destroyed object). -/
inductive Res where
  | ok (w : World)
  | raised (w : World)
  | abort
  | ub
  deriving DecidableEq, Repr

/-- `starpu_init` which succeeds. -/
def World.starpuInit (w : World) : World := { w with count := w.count + 1, log := w.log ++ [.init] }

/-- `starpu_cublas_init`. -/
def World.cublasInit (w : World) : World := { w with cublas := w.cublas + 1, log := w.log ++ [.cublasInit] }

/-- `starpu_cublas_shutdown`. -/
def World.cublasShutdown (w : World) : Res :=
  if w.count = 0 ∨ w.cublas = 0 then .abort else .ok { w with cublas := w.cublas - 1, log := w.log ++ [.cublasShutdown] }

/-- `starpu_shutdown`. -/
def World.starpuShutdown (w : World) : Res :=
  if w.count = 0 then .abort else .ok { w with count := w.count - 1, log := w.log ++ [.shutdown] }

/-- `Config(ncpus, ncuda, cublas)`, `config.hh:61-101`: `confOk` and `initOk` say whether `starpu_conf_init` and `starpu_init` return zero. -/
def World.construct (cuda : Bool) (w : World) (cublas : Int) (confOk initOk : Bool) : Res :=
  if confOk = false then .raised w
  else if initOk = false then .raised w
  else
    let v := if cuda = true ∧ cublas ≠ 0 then w.starpuInit.cublasInit else w.starpuInit
    .ok { v with objects := v.objects ++ [some cublas] }

/-- The copy constructor which the compiler supplies for the class, `config.hh:57-60`: it copies the members and calls nothing of StarPU. -/
def World.copy (w : World) (i : Nat) : Res :=
  match w.objects[i]? with
  | some (some c) => .ok { w with objects := w.objects ++ [some c] }
  | _ => .ub

/-- `Config::shutdown`, `config.hh:106-117`: the object does not remember that it was shut down. -/
def World.shutdown (cuda : Bool) (w : World) (i : Nat) : Res :=
  match w.objects[i]? with
  | some (some c) =>
    if cuda = true ∧ c ≠ 0 then
      match w.cublasShutdown with
      | .ok w => w.starpuShutdown
      | r => r
    else w.starpuShutdown
  | _ => .ub

/-- `~Config`, `config.hh:102-105`. -/
def World.destroy (cuda : Bool) (w : World) (i : Nat) : Res :=
  match w.shutdown cuda i with
  | .ok w => .ok { w with objects := w.objects.set i none }
  | r => r

/-- Operations of a program. A constructor which throws leaves no object. -/
inductive Op where
  | construct (cublas : Int) (confOk initOk : Bool)
  | copy (i : Nat)
  | shutdown (i : Nat)
  | destroy (i : Nat)
  deriving DecidableEq, Repr

/-- One operation. -/
def step (cuda : Bool) (w : World) : Op → Res
  | .construct c a b => w.construct cuda c a b
  | .copy i => w.copy i
  | .shutdown i => w.shutdown cuda i
  | .destroy i => w.destroy cuda i

/-- A program; exceptions are caught. -/
def run (cuda : Bool) (w : World) : List Op → Res
  | [] => .ok w
  | op :: ops =>
    match step cuda w op with
    | .ok w => run cuda w ops
    | .raised w => run cuda w ops
    | r => r

end NNTile.Conf
