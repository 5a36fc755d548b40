import Verif.Model.Elementwise
/-!
# Model of `axpy` with a scalar factor given by value

Simplifications: the same as in `Model/Elementwise.lean`.
-/
namespace NNTile
variable {α : Type}

/-- `cpu_scalar_alpha`: `cblas_?axpy(nelems, alpha, src, 1, dst, 1)`, `src/starpu/axpy.cc.in:72-85`. -/
def axpyScalarKernel [FP α] (nelems : Nat) (alpha : α) (src dst : Buf α) : M (Buf α) :=
  forN nelems (fun i dst => do
    let x ← src.rd i
    let y ← dst.rd i
    dst.wr i (alpha * x + y)) dst

/-- `starpu::axpy::submit(T alpha, ...)`, `src/starpu/axpy.cc.in:266-297`. -/
def submitAxpyScalar [FP α] (alpha : α) (nelems : Nat) (src dst : Handle) : Task1 α :=
  task1 "axpy" src .RW dst (axpyScalarKernel nelems alpha)

/-- `axpy_async(T alpha, ...)`, `src/tensor/axpy.cc:123-158`. -/
def axpyScalarAsync [FP α] (alpha : α) (src dst : Tensor) : M (List (Task1 α)) := do
  checkSame' src dst
  loop1 src dst (fun n h h' => submitAxpyScalar alpha n h h')

end NNTile
