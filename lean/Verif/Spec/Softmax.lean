import Verif.Spec.Mse
/-!
# Softmax
-/
namespace NNTile
open Finset

/-- `alpha * exp(r l) / (exp(r 0) + ... + exp(r (n-1)))`; masked entries count as `exp(-inf) = 0`. -/
noncomputable def softmaxSpec (alpha : ℝ) (n : Nat) (r : Nat → XReal) (l : Nat) : ℝ :=
  alpha * expWeight 0 (r l) / ∑ j ∈ range n, expWeight 0 (r j)

open Classical in
/-- `log(exp(r 0) + ... + exp(r (n-1)))`, which is `-inf` if all entries are masked. -/
noncomputable def logsumexpSpec (n : Nat) (r : Nat → XReal) : XReal :=
  if ∀ l, l < n → r l = .ninf then .ninf else .fin (Real.log (∑ j ∈ range n, expWeight 0 (r j)))

/-- The tensor of pairs `mse` contains what `maxsumexp` computes from data `x` of shape `S` along axis `a`: see `C19_maxsumexp`. -/
def HoldsMse (mse : Tensor) (s : Store XReal) (S : List Nat) (a : Nat) (x : List Nat → XReal) : Prop :=
  ∃ v, mse.Holds s v ∧ ∀ I, InBox (S.eraseIdx a) I → IsMaxSumExp (S.getD a 0) (fun L => x (I.insertIdx a L)) (v (0 :: I)) (v (1 :: I))

end NNTile
