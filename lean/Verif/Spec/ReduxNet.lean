import Verif.Model.Reductions
import Verif.Spec.Ops
import Verif.Spec.RealFP
/-! What is needed of a model in order to be executed with replicas (`C80`). -/
namespace NNTile

/-- The tensors are allocated; no tensor is registered for two kinds of reduction; tensors of pairs of a maximum and a sum are used for nothing else, and no sum in them is negative. -/
structure ReduxNet (m : BaseModel ℝ) (L : List (CrossEntropy ℝ)) (s : Store ℝ) : Prop where
  wf : ∀ T ∈ reduxTensors m L, T.WF
  ready : ∀ p ∈ netReductions m L, p.1.Ready s
  kinds : ∀ p ∈ netReductions m L, ∀ q ∈ netReductions m L, p.1.id = q.1.id → p.2 = q.2
  pairs : ∀ p ∈ netReductions m L, p.2 = .maxsumexp → (∀ T ∈ reduxTensors m L, T.id ≠ p.1.id) ∧ ∀ i j v, (s (p.1.id, i)).data (2 * j + 1) = some v → 0 ≤ v

/-- A task of another part of the program: not in reduction mode, it does not change the size of a tile and does not write to tensors of pairs. -/
def OtherTask (m : BaseModel ℝ) (L : List (CrossEntropy ℝ)) (t : Task1 ℝ) : Prop :=
  t.mode ≠ .REDUX ∧ (∀ rs b b', t.fn rs b = .ok b' → b'.size = b.size) ∧ ∀ p ∈ netReductions m L, p.2 = .maxsumexp → t.out.1 ≠ p.1.id

/-- A program which uses the model: forward and backward passes, clearing of gradients, calculation of losses (the tasks which add up the value of the loss commute), and other tasks (for
example those of an optimizer), in any order and any number. -/
inductive ReduxProgram (asIdx : ℝ → Int) (invalidate : Bool) (m : BaseModel ℝ) (L : List (CrossEntropy ℝ)) : List (Task1 ℝ) → Prop
  | nil : ReduxProgram asIdx invalidate m L []
  | forward {p ts : List (Task1 ℝ)} (h : ReduxProgram asIdx invalidate m L p) (e : m.forwardAsync asIdx invalidate = .ok ts) : ReduxProgram asIdx invalidate m L (p ++ ts)
  | backward {p ts : List (Task1 ℝ)} (h : ReduxProgram asIdx invalidate m L p) (e : m.backwardAsync asIdx invalidate = .ok ts) : ReduxProgram asIdx invalidate m L (p ++ ts)
  | clear {p ts : List (Task1 ℝ)} (h : ReduxProgram asIdx invalidate m L p) (e : m.clearGradients = .ok ts) : ReduxProgram asIdx invalidate m L (p ++ ts)
  | loss {p ts : List (Task1 ℝ)} {l : CrossEntropy ℝ} (h : ReduxProgram asIdx invalidate m L p) (hl : l ∈ L) (e : l.calcAsync asIdx = .ok ts) : ReduxProgram asIdx invalidate m L (p ++ ts.map Task1.commuting)
  | other {p ts : List (Task1 ℝ)} (h : ReduxProgram asIdx invalidate m L p) (e : ∀ t ∈ ts, OtherTask m L t) : ReduxProgram asIdx invalidate m L (p ++ ts)

end NNTile
