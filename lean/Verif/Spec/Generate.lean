import Verif.Spec.Gpt2
/-!
# What it means to continue a text with a language model
-/
namespace NNTile
variable {α : Type}

/-- The logits at the position `s` depend on the tokens up to `s` only. -/
def Causal (out : List Nat → Nat → Nat → α) : Prop :=
  ∀ x x' : List Nat, ∀ v s, (∀ r, r ≤ s → x.getD r 0 = x'.getD r 0) → out x v s = out x' v s

/-- Each of the tokens at the positions from `a` to `b` (without `b`) is the most likely one (the first if there are several) after the tokens before it, whatever comes behind them in the input. -/
def Greedy [LT α] [LE α] (vocab : Nat) (out : List Nat → Nat → Nat → α) (x : List Nat) (a b : Nat) : Prop :=
  ∀ p, a ≤ p → p < b → x.getD p 0 < vocab ∧ ∀ y : List Nat, (∀ r, r < p → y.getD r 0 = x.getD r 0) →
    (∀ u, u < vocab → out y u (p - 1) ≤ out y (x.getD p 0) (p - 1)) ∧ ∀ u, u < x.getD p 0 → out y u (p - 1) < out y (x.getD p 0) (p - 1)

/-- The logits of a GPT2 for the sequence `x` (see `gptOut`), with positions numbered from 0. -/
noncomputable def gptLogits (z : GptDims) (p : GptP (List Nat → ℝ)) (x : List Nat) (v s : Nat) : ℝ :=
  gptOut z softCausal p (fun I => x.getD (I.getD 0 0) 0) (fun I => I.getD 0 0) [v, s, 0]

end NNTile
