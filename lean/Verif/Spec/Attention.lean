import Verif.Model.Attention
import Verif.Spec.Network
import Verif.Spec.RealFP
import Mathlib.Data.List.Dedup
/-!
# Meaning of multi-head attention

Indices: `e` of the embedding, `s`, `i`, `j` of the sequence, `n` of the batch, `h` of the head, `d` within the head.
-/
namespace NNTile
open Finset

deriving instance DecidableEq for Tensor
deriving instance DecidableEq for Moments

noncomputable section

/-- Queries, keys or values: the input `x` multiplied by the weights of each head, plus a bias. -/
def attnProj (E : Nat) (w x b : List Nat → ℝ) : List Nat → ℝ
  | [d, s, n, h] => ∑ e ∈ range E, w [h, d, e] * x [e, s, n] + b [d, h]
  | _ => 0

/-- Scores: scalar products of the key at position `i` and the query at position `j`, divided by the square root of the size of the head. -/
def attnScore (D : Nat) (k q : List Nat → ℝ) : List Nat → ℝ
  | [i, j, n, h] => (∑ d ∈ range D, k [d, i, n, h] * q [d, j, n, h]) / √D
  | _ => 0

/-- Scores of the pairs of positions which the mask does not allow are replaced by `val`. -/
def attnMasked (allowed : List Nat → Bool) (val : ℝ) (s : List Nat → ℝ) : List Nat → ℝ
  | [i, j, n, h] => if allowed [i, j] then s [i, j, n, h] else val
  | _ => 0

/-- The softmax of the scores over the position of the key. -/
def attnWeights (S : Nat) (s : List Nat → ℝ) : List Nat → ℝ
  | [i, j, n, h] => Real.exp (s [i, j, n, h]) / ∑ i' ∈ range S, Real.exp (s [i', j, n, h])
  | _ => 0

/-- The average of the values with these weights. -/
def attnHeads (S : Nat) (v a : List Nat → ℝ) : List Nat → ℝ
  | [d, j, n, h] => ∑ i ∈ range S, v [d, i, n, h] * a [i, j, n, h]
  | _ => 0

/-- The output: the results of all heads multiplied by the output weights, plus a bias. -/
def attnCombine (H D : Nat) (w b bo : List Nat → ℝ) : List Nat → ℝ
  | [e, j, n] => ∑ h ∈ range H, ∑ d ∈ range D, w [e, h, d] * b [d, j, n, h] + bo [e]
  | _ => 0

/-- An optional bias. -/
def biasAt (b : Option Moments) (env : Env) : List Nat → ℝ := fun I => match b with
  | some m => env m.value.id I
  | none => 0

/-- An optional mask. -/
def maskAt (asIdx : ℝ → Int) (mask : Option Tensor) (env : Env) : List Nat → Bool := fun I => match mask with
  | some T => maskBool asIdx (env T.id I)
  | none => true

/-- The sizes: embeddings of queries, keys and values, sequence, batch, heads, head. -/
structure AttnDims where
  E : Nat
  Ek : Nat
  Ev : Nat
  S : Nat
  B : Nat
  H : Nat
  D : Nat

namespace Attention
variable (l : Attention ℝ) (z : AttnDims) (asIdx : ℝ → Int) (env : Env)

def Q : List Nat → ℝ := attnProj z.E (env l.wq.value.id) (env l.xq.value.id) (biasAt l.biasQ env)
def K : List Nat → ℝ := attnProj z.Ek (env l.wk.value.id) (env l.xk.value.id) (biasAt l.biasK env)
def V : List Nat → ℝ := attnProj z.Ev (env l.wv.value.id) (env l.xv.value.id) (biasAt l.biasV env)
def A : List Nat → ℝ := attnWeights z.S (attnMasked (maskAt asIdx l.mask env) l.val (attnScore z.D (l.K z env) (l.Q z env)))
def headsOut : List Nat → ℝ := attnHeads z.S (l.V z env) (l.A z asIdx env)

/-- The output of the layer. -/
def F : List Nat → ℝ := attnCombine z.H z.D (env l.w.value.id) (l.headsOut z asIdx env) (biasAt l.biasOut env)

end Attention

/-- Shape and tiling of a value and, if it is required, of its gradient. -/
def Moments.Is (m : Moments) (S B : List Nat) : Prop :=
  m.value.shape = S ∧ m.value.basetile = B ∧ (m.gradRequired = true → m.grad.shape = S ∧ m.grad.basetile = B)

/-- The shapes and tilings of the tensors of the layer fit; `t` are the sizes of tiles. -/
structure Attention.Fits (l : Attention ℝ) (z t : AttnDims) : Prop where
  xq : l.xq.Is [z.E, z.S, z.B] [t.E, t.S, t.B]
  xk : l.xk.Is [z.Ek, z.S, z.B] [t.Ek, t.S, t.B]
  xv : l.xv.Is [z.Ev, z.S, z.B] [t.Ev, t.S, t.B]
  y : l.y.Is [z.E, z.S, z.B] [t.E, t.S, t.B]
  wq : l.wq.Is [z.H, z.D, z.E] [t.H, t.D, t.E]
  wk : l.wk.Is [z.H, z.D, z.Ek] [t.H, t.D, t.Ek]
  wv : l.wv.Is [z.H, z.D, z.Ev] [t.H, t.D, t.Ev]
  w : l.w.Is [z.E, z.H, z.D] [t.E, t.H, t.D]
  tT : ∀ m ∈ [l.qT, l.kT, l.vT, l.bT], m.Is [z.H, z.D, z.S, z.B] [t.H, t.D, t.S, t.B]
  t4 : ∀ m ∈ [l.q, l.k, l.v, l.b], m.Is [z.D, z.S, z.B, z.H] [t.D, t.S, t.B, t.H]
  a : l.a.Is [z.S, z.S, z.B, z.H] [t.S, t.S, t.B, t.H]
  mse : l.aMaxsumexp.shape = [2, z.S, z.B, z.H] ∧ l.aMaxsumexp.basetile = [2, t.S, t.B, t.H]
  sps : l.aSumprodSlice.shape = [z.S, z.B, z.H] ∧ l.aSumprodSlice.basetile = [t.S, t.B, t.H]
  bqkv : ∀ o ∈ [l.biasQ, l.biasK, l.biasV], ∀ m, o = some m → m.Is [z.D, z.H] [t.D, t.H]
  bo : ∀ m, l.biasOut = some m → m.Is [z.E] [t.E]
  mask : ∀ T, l.mask = some T → T.shape = [z.S, z.S] ∧ T.basetile = [t.S, t.S]
  headSize : l.headSize = z.D
  required : ∀ m ∈ [l.y, l.qT, l.q, l.kT, l.k, l.vT, l.v, l.a, l.b, l.bT], m.gradRequired = true

/-- The mask as a tensor that the layer reads. -/
def maskMoments (T : Tensor) : Moments := ⟨T, T, false⟩

/-- The tensors the layer reads: inputs (in self-attention they are the same tensor), weights, biases, mask. -/
def Attention.ins (l : Attention ℝ) : List Moments :=
  [l.xq, l.xk, l.xv].dedup ++ [l.wq, l.wk, l.wv, l.w] ++ [l.biasQ, l.biasK, l.biasV, l.biasOut].filterMap id ++ (l.mask.map maskMoments).toList

/-- The temporary tensors. -/
def Attention.temps (l : Attention ℝ) : List Tensor :=
  [l.qT, l.q, l.kT, l.k, l.vT, l.v, l.a, l.b, l.bT].flatMap (fun m => [m.value, m.grad]) ++ [l.aMaxsumexp, l.aSumprodSlice]

/-- The attention layer as part of a network. Forward propagation leaves queries, keys, values, weights and the (transposed) results of the heads for backward propagation. -/
def Attention.toNet (l : Attention ℝ) (z : AttnDims) (asIdx : ℝ → Int) (invalidate : Bool) : NetLayer where
  ins := l.ins
  out := l.y
  temps := l.temps
  forward := l.forwardAsync asIdx invalidate
  backward := l.backwardAsync asIdx invalidate
  F := l.F z asIdx
  Saved env s := l.q.value.Holds s (l.Q z env) ∧ l.k.value.Holds s (l.K z env) ∧ l.v.value.Holds s (l.V z env) ∧ l.a.value.Holds s (l.A z asIdx env) ∧
    l.bT.value.Holds s (fun I => l.headsOut z asIdx env (I.drop 1 ++ I.take 1))
  Valid _ := True
  Regular _ := True

end
end NNTile
