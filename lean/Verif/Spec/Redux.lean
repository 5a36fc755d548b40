import Verif.Model.Redux
import Verif.Spec.Ops
/-!
# Meaning of an operation executed with replicas
-/
namespace NNTile
variable {α : Type}

/-- `async` is accepted, and however the runtime executes the accumulating tasks on each tile (`P h` is the execution chosen for the tile `h`),
nothing undefined happens and then exactly `dst` has changed, its value at `I` being `v I`. No task reads a tile that another one writes, so the tasks
on different tiles do not depend on each other. -/
def ComputesRedux (R : ReduxCl α) (async : M (List (Task1 α))) (s : Store α) (dst : Tensor) (v : List Nat → α) : Prop :=
  ∃ ts, async = .ok ts ∧ (∀ t ∈ ts, ∀ r ∈ t.reads, ∀ u ∈ ts, u.out ≠ r) ∧
    ∀ P : Handle → Plan α, (∀ h, (P h).Of (ts.filter (fun t => t.out = h))) →
      ∃ s' : Store α, (∀ h, (P h).run R s (s h) = .ok (s' h)) ∧ dst.Ready s' ∧ dst.Holds s' v ∧ OnlyChanged [dst.id] s s'

end NNTile
