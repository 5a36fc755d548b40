import Verif.Model.Elementwise
/-!
# `adam_step`, `adamw_step`

The literals `1.` and `1.0` of the kernels are of type `double`; the model computes with them in the type `T` (exact for `T = fp64_t`).
-/
namespace NNTile
variable {α : Type}

/-- The buffers that the kernel updates. -/
structure AdamBufs (α : Type) where
  first_moment : Buf α
  second_moment : Buf α
  p : Buf α

/-- The loop of both kernels, `src/kernel/adam_step/cpu.cc:46-82` and `src/kernel/adamw_step/cpu.cc:46-82`, which differ only in line 55:
`prep p_val grad_val` is the pair `(p_val, grad_val)` after lines 53-56. -/
def adamLoop [FP α] (prep : α → α → α × α) (num_iter : Int) (num_elems : Nat) (beta_1 beta_2 eps lr : α) (grad : Buf α) (b : AdamBufs α) :
    M (AdamBufs α) :=
  let alpha := lr / (1 - FP.pow beta_1 (FP.ofIndex num_iter))
  let beta := 1 / FP.sqrt (1 - FP.pow beta_2 (FP.ofIndex num_iter))
  forN num_elems (fun i b => do
    let p_val ← b.p.rd i
    let grad_val ← grad.rd i
    let q := prep p_val grad_val
    let p_val := q.1
    let grad_val := q.2
    if num_iter = 1 then do
      let f_val := (1 - beta_1) * grad_val
      let first_moment ← b.first_moment.wr i f_val
      let s_val := FP.sqrt (1 - beta_2) * FP.fabs grad_val
      let second_moment ← b.second_moment.wr i s_val
      let denom := s_val * beta + eps
      let p ← b.p.wr i (p_val - alpha * f_val / denom)
      .ok ⟨first_moment, second_moment, p⟩
    else do
      let f_val ← b.first_moment.rd i
      let s_val ← b.second_moment.rd i
      let f_val := beta_1 * f_val + (1 - beta_1) * grad_val
      let first_moment ← b.first_moment.wr i f_val
      let s_val := FP.hypot (FP.sqrt beta_2 * s_val) (FP.sqrt (1 - beta_2) * grad_val)
      let second_moment ← b.second_moment.wr i s_val
      let denom := s_val * beta + eps
      let p ← b.p.wr i (p_val - alpha * f_val / denom)
      .ok ⟨first_moment, second_moment, p⟩) b

/-- `src/kernel/adam_step/cpu.cc:26-82`. -/
def adamKernel [FP α] (num_iter : Int) (num_elems : Nat) (beta_1 beta_2 eps lr weight_decay : α) (grad : Buf α) (b : AdamBufs α) : M (AdamBufs α) :=
  adamLoop (fun p_val grad_val => if FP.eqb weight_decay 0 then (p_val, grad_val) else (p_val, grad_val + weight_decay * p_val))
    num_iter num_elems beta_1 beta_2 eps lr grad b

/-- `src/kernel/adamw_step/cpu.cc:26-82`. -/
def adamwKernel [FP α] (num_iter : Int) (num_elems : Nat) (beta_1 beta_2 eps lr weight_decay : α) (grad : Buf α) (b : AdamBufs α) : M (AdamBufs α) :=
  adamLoop (fun p_val grad_val => if FP.eqb weight_decay 0 then (p_val, grad_val) else (p_val * (1 - lr * weight_decay), grad_val))
    num_iter num_elems beta_1 beta_2 eps lr grad b

/-- A kernel with the argument list of `adam_step` and `adamw_step`. -/
abbrev AdamKernel (α : Type) := Int → Nat → α → α → α → α → α → Buf α → AdamBufs α → M (AdamBufs α)

/-- `starpu::adam_step::submit` and `starpu::adamw_step::submit`, `src/starpu/adam_step.cc:104-140`, `src/starpu/adamw_step.cc:106-142`
(and the unpacking of the arguments, lines 25-44 and 26-45): the moments are accessed in mode `STARPU_W` in the first iteration. -/
def submitAdam (codelet : String) (kernel : AdamKernel α) (num_iter : Int) (num_elems : Nat) (beta_1 beta_2 eps lr weight_decay : α)
    (grad first_moment second_moment p : Handle) : Task α :=
  let moments_mode := if num_iter = 1 then WMode.W else WMode.RW
  { codelet := codelet
    reads := [grad]
    writes := [(first_moment, moments_mode), (second_moment, moments_mode), (p, .RW)]
    run := fun rs ws => match rs, ws with
      | [g], [m, v, p] => do
        let b ← kernel num_iter num_elems beta_1 beta_2 eps lr weight_decay g ⟨m, v, p⟩
        .ok [b.first_moment, b.second_moment, b.p]
      | _, _ => .error (.ub "wrong number of buffers") }

/-- Body of `adam_step_async`, `src/tensor/adam_step.cc:28-74`, and of `adamw_step_async`, `src/tensor/adamw_step.cc:29-75`. Only the shapes
are compared, not the basetiles; `get_tile_handle(i)` does not check its argument. -/
def adamTensor (codelet : String) (kernel : AdamKernel α) (num_iter : Int) (beta_1 beta_2 eps lr weight_decay : α)
    (grad first_moment second_moment p : Tensor) : M (List (Task α)) := do
  throwIf (matrixShapeOf p.shape ≠ matrixShapeOf grad.shape) "Parameter shape is not equal to gradient shape"
  throwIf (matrixShapeOf p.shape ≠ matrixShapeOf first_moment.shape) "Parameter shape is not equal to first_moment shape"
  throwIf (matrixShapeOf p.shape ≠ matrixShapeOf second_moment.shape) "Parameter shape is not equal to second_moment shape"
  forTasks p.ntiles (fun i => do
    let p_tile_handle ← p.handleL i
    let grad_tile_handle ← grad.handleL i
    let first_moment_tile_handle ← first_moment.handleL i
    let second_moment_tile_handle ← second_moment.handleL i
    .ok [submitAdam codelet kernel num_iter (p.tshapeL i).prod beta_1 beta_2 eps lr weight_decay grad_tile_handle first_moment_tile_handle
      second_moment_tile_handle p_tile_handle])

/-- `adam_step_async`, `src/tensor/adam_step.cc:24-74`. -/
def adamStepAsync [FP α] (num_iter : Int) (beta_1 beta_2 eps lr weight_decay : α) (grad first_moment second_moment p : Tensor) :
    M (List (Task α)) :=
  adamTensor "adam_step" adamKernel num_iter beta_1 beta_2 eps lr weight_decay grad first_moment second_moment p

/-- `adamw_step_async`, `src/tensor/adamw_step.cc:25-75`. -/
def adamwStepAsync [FP α] (num_iter : Int) (beta_1 beta_2 eps lr weight_decay : α) (grad first_moment second_moment p : Tensor) :
    M (List (Task α)) :=
  adamTensor "adamw_step" adamwKernel num_iter beta_1 beta_2 eps lr weight_decay grad first_moment second_moment p

end NNTile
