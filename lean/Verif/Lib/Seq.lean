import Verif.Lib.Nrm2
import Verif.Lib.Elementwise
/-!
# Sequences of operations
-/
namespace NNTile
variable {α : Type} {s s' s'' : Store α} {ids ids' : List Nat} {T : Tensor}

theorem OnlyChanged.ready (h : OnlyChanged ids s s') (hT : T.Ready s) (hid : T.id ∉ ids) : T.Ready s' :=
  ⟨hT.1, fun i hi => by rw [h _ hid]; exact hT.2 i hi⟩

theorem OnlyChanged.holds (h : OnlyChanged ids s s') {x : List Nat → α} (hT : T.Holds s x) (hid : T.id ∉ ids) : T.Holds s' x :=
  fun I hI => by rw [h.get hid]; exact hT I hI

theorem OnlyChanged.trans (h : OnlyChanged ids s s') (h' : OnlyChanged ids' s' s'') : OnlyChanged (ids ++ ids') s s'' := by
  intro k hk
  simp only [List.mem_append, not_or] at hk
  rw [h' k hk.2, h k hk.1]

theorem OnlyChanged.mono (h : OnlyChanged ids s s') (hsub : ∀ i ∈ ids, i ∈ ids') : OnlyChanged ids' s s' :=
  fun k hk => h k (fun hm => hk (hsub _ hm))

theorem Computes.congr {async : M (List (Task1 α))} {v w : List Nat → α} (h : Computes async s T v) (hvw : ∀ I, InBox T.shape I → v I = w I) :
    Computes async s T w := by
  obtain ⟨ts, s1, e1, e2, e3, e4⟩ := h
  exact ⟨ts, s1, e1, e2, fun I hI => by rw [e3 I hI, hvw I hI], e4⟩

end NNTile
