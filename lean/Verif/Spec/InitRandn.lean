import Verif.Spec.Normal
import Verif.Spec.Random
import Verif.Spec.Layer
import Verif.Spec.Index
/-! What random initialization has to do. -/
namespace NNTile

/-- Element `I` of an initialized parameter of shape `S`: number `lin S I` (the position of the element in column-major order) of the normal stream with seed 100, mean 0 and standard
deviation `1/√(number of elements)`, in the arithmetic of `α`. -/
def initNumber {α : Type} [FP α] (cos : α → α) (S I : List Nat) : α :=
  nthNormal laran (boxMuller cos (FP.lit 0) (FP.lit 1 / FP.sqrt (FP.ofIndex (S.prod : Int)))) 100#64 (lin S I)

/-- The same in exact arithmetic. -/
noncomputable def initValue (S I : List Nat) : ℝ :=
  boxMullerSpec 0 (1 / Real.sqrt S.prod) (unitOf (drawState 100#64 (2 * lin S I))) (unitOf (drawState 100#64 (2 * lin S I + 1)))

/-- Two parameters with the same identity are the same tensor. -/
def Consistent (params : List Moments) : Prop := ∀ p ∈ params, ∀ q ∈ params, p.value.id = q.value.id → p.value = q.value

end NNTile
