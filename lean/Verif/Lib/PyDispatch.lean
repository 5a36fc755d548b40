import Verif.Spec.PyDispatch
import Verif.Lib.Core
/-!
# Calls with omitted arguments
-/
namespace NNTile

theorem acceptAll_cons {p : Param} {ps : List Param} {a : PyVal} {as : List PyVal} : acceptAll (p :: ps) (a :: as) ↔ p.accepts a.type ∧ acceptAll ps as := Iff.rfl

/-- It is enough to look at calls with all arguments. -/
theorem obeys_of {f : PyOp} {sp : OpSpec} (ha : f.arity = sp.roles.length) (hd : f.defaults = List.replicate sp.optional (pyInt 0)) (ho : sp.optional ≤ sp.roles.length)
    (h1 : ∀ args d, d ∈ sp.types → Fit d sp.roles args → f.body args = .ok ⟨sp.core, d, sp.pass d args⟩)
    (h2 : ∀ args, args.length = sp.roles.length → (∀ d ∈ sp.types, ¬ Fit d sp.roles args) → f.body args = typeError) : Obeys f sp := by
  constructor
  · intro args k hk d hm hf
    have hl := List.Forall₂.length_eq hf
    rw [List.length_append, List.length_replicate] at hl
    rw [PyOp.call, if_pos (by rw [ha, hd, List.length_replicate]; omega), hd, List.drop_replicate, List.length_replicate, ha,
      show sp.optional - (args.length - (sp.roles.length - sp.optional)) = k by omega]
    exact h1 _ d hm hf
  · intro args hf
    rw [PyOp.call]
    split_ifs with hc
    · rw [ha, hd, List.length_replicate] at hc
      rw [hd, List.drop_replicate, List.length_replicate, ha, show sp.optional - (args.length - (sp.roles.length - sp.optional)) = sp.roles.length - args.length by omega]
      exact h2 _ (by rw [List.length_append, List.length_replicate]; omega) (hf _ (by omega))
    · rfl

/-- An exception, unless the arguments are accepted. -/
theorem Binding.call_rejects {b : Binding} {args : List PyVal} (h : ∀ ps ∈ b.overloads, ¬ acceptAll ps args) : b.call args = typeError := by
  rw [Binding.call, if_neg]
  simpa using h

/-- Both branches raise. -/
theorem ite_rejects {c : Prop} [Decidable c] {x y : M CoreCall} (h1 : c → x = typeError) (h2 : ¬ c → y = typeError) : (if c then x else y) = typeError := by
  split_ifs with h
  · exact h1 h
  · exact h2 h

end NNTile
