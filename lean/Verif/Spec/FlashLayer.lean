import Verif.Model.FlashLayer
import Verif.Spec.Flash
/-!
# The FlashAttention layer as part of a network
-/
namespace NNTile
noncomputable section

/-- The scores after masking. -/
def Attention.scores (l : Attention ℝ) (z : AttnDims) (asIdx : ℝ → Int) (env : Env) : List Nat → ℝ :=
  attnMasked (maskAt asIdx l.mask env) l.val (attnScore z.D (l.K z env) (l.Q z env))

/-- The FlashAttention layer: the same inputs, output and function `F` as the attention layer. Forward propagation leaves queries, keys, values, the maxima and sums of
exponents and the (transposed) results of the heads for backward propagation, but not the weights. -/
def Attention.toFlashNet (l : Attention ℝ) (z : AttnDims) (asIdx : ℝ → Int) (invalidate : Bool) : NetLayer where
  ins := l.ins
  out := l.y
  temps := l.temps
  forward := l.flashForwardAsync asIdx invalidate
  backward := l.flashBackwardAsync asIdx invalidate
  F := l.F z asIdx
  Saved env s := l.q.value.Holds s (l.Q z env) ∧ l.k.value.Holds s (l.K z env) ∧ l.v.value.Holds s (l.V z env) ∧
    (∃ w, l.aMaxsumexp.Holds s w ∧ IsMaxSum z (l.scores z asIdx env) w) ∧
    l.bT.value.Holds s (fun I => l.headsOut z asIdx env (I.drop 1 ++ I.take 1))
  Valid _ := True
  Regular _ := True

end
end NNTile
