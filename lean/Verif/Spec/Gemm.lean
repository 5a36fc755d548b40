import Verif.Model.Gemm
import Verif.Spec.Ops
import Verif.Spec.Box
import Verif.Spec.RealFP
/-!
# Meaning of `gemm`

`A`, `B`, `C` are seen as (batches of) matrices whose row and column numbers are multi-indices: `C` has the dimensions `M ++ N ++ R` (rows, columns,
batch), `op(A)` the dimensions `M ++ K ++ R`, `op(B)` the dimensions `K ++ N ++ R`, where `op` exchanges rows and columns if requested.
-/
namespace NNTile
open Finset

/-- Dimensions (or index) of the stored tensor, given those of the rows `P` and columns `Q` of the matrix after `op` and of the batch. -/
def opCat : TransOp → List Nat → List Nat → List Nat → List Nat
  | .noTrans, P, Q, R => P ++ Q ++ R
  | .trans, P, Q, R => Q ++ P ++ R

/-- The dimensions fit: `ndim` dimensions are contracted, the last `batch_ndim` dimensions are common. -/
def GemmDims (transA transB : TransOp) (ndim batch_ndim : Nat) (A B C M K N R : List Nat) : Prop :=
  K.length = ndim ∧ R.length = batch_ndim ∧ A = opCat transA M K R ∧ B = opCat transB K N R ∧ C = M ++ N ++ R

/-- Shapes and tilings of the three tensors fit. -/
def GemmFit (transA transB : TransOp) (ndim batch_ndim : Nat) (A B C : Tensor) : Prop :=
  (∃ M K N R, GemmDims transA transB ndim batch_ndim A.shape B.shape C.shape M K N R) ∧
  (∃ M K N R, GemmDims transA transB ndim batch_ndim A.basetile B.basetile C.basetile M K N R)

/-- Element `I ++ J ++ b` of `alpha * op(A) * op(B) + beta * C` for contraction over the dimensions `K`. -/
noncomputable def gemmVal (transA transB : TransOp) (K : List Nat) (alpha beta : ℝ) (x y z : List Nat → ℝ) (I J b : List Nat) : ℝ :=
  alpha * ∑ k ∈ box K, x (opCat transA I k b) * y (opCat transB k J b) + beta * z (I ++ J ++ b)

end NNTile
