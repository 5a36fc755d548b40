import Verif.Model.Gpt2
import Verif.Spec.DeepModels
import Verif.Spec.Attention
/-!
# What `GPT2Model` means

Indices: `e` of the embedding, `s` of the sequence, `n` of the batch.
-/
namespace NNTile
open Finset
noncomputable section

/-- The parameters of a transformer block: the tensors (`P = Moments`) or their contents. In this order they are in the list of parameters of the model. -/
structure GptBlockP (P : Type) where
  /-- The first normalization. -/
  g1 : P
  b1 : P
  /-- Attention: weights and biases of queries, keys, values, and of the output. -/
  wq : P
  wk : P
  wv : P
  bq : P
  bk : P
  bv : P
  w : P
  bo : P
  /-- The second normalization. -/
  g2 : P
  b2 : P
  /-- The two linear layers of the MLP. -/
  w1 : P
  c1 : P
  w2 : P
  c2 : P

def GptBlockP.toList {P : Type} (p : GptBlockP P) : List P := [p.g1, p.b1, p.wq, p.wk, p.wv, p.bq, p.bk, p.bv, p.w, p.bo, p.g2, p.b2, p.w1, p.c1, p.w2, p.c2]

def GptBlockP.map {P Q : Type} (f : P → Q) (p : GptBlockP P) : GptBlockP Q :=
  ⟨f p.g1, f p.b1, f p.wq, f p.wk, f p.wv, f p.bq, f p.bk, f p.bv, f p.w, f p.bo, f p.g2, f p.b2, f p.w1, f p.c1, f p.w2, f p.c2⟩

/-- Scales and shifts of the normalizations. -/
def GptBlockP.norms {P : Type} (p : GptBlockP P) : List (P × P) := [(p.g1, p.b1), (p.g2, p.b2)]

/-- Shapes of the parameters of a block. -/
def GptBlockP.Shapes (E H D inner : Nat) (p : GptBlockP Moments) : Prop :=
  p.toList.map (fun m => m.value.shape) = [[E], [E], [H, D, E], [H, D, E], [H, D, E], [D, H], [D, H], [D, H], [E, H, D], [E], [E], [E], [inner, E], [inner], [E, inner], [E]]

/-- All parameters. -/
structure GptP (P : Type) where
  wte : P
  wpe : P
  blocks : List (GptBlockP P)
  gf : P
  bf : P
  lm : P

def GptP.toList {P : Type} (p : GptP P) : List P := p.wte :: p.wpe :: (p.blocks.flatMap GptBlockP.toList ++ [p.gf, p.bf, p.lm])

def GptP.map {P Q : Type} (f : P → Q) (p : GptP P) : GptP Q := ⟨f p.wte, f p.wpe, p.blocks.map (GptBlockP.map f), f p.gf, f p.bf, f p.lm⟩

/-- Scales and shifts of the normalizations. -/
def GptP.norms {P : Type} (p : GptP P) : List (P × P) := p.blocks.flatMap GptBlockP.norms ++ [(p.gf, p.bf)]

/-- Shapes of the parameters. -/
def GptP.Shapes (vocab maxPos E H D inner : Nat) (p : GptP Moments) : Prop :=
  p.wte.value.shape = [E, vocab] ∧ p.wpe.value.shape = [E, maxPos] ∧ (∀ q ∈ p.blocks, q.Shapes E H D inner) ∧ p.gf.value.shape = [E] ∧ p.bf.value.shape = [E] ∧
    p.lm.value.shape = [vocab, E]

/-- What the constructor needs: tokens and positions with the same tiling of the sequence, positive sizes, the size of the embedding is a product of size and number of heads,
the tiles of the embedding are divisible by the tiles of the embedding of the vocabulary, and the activation function is known. With FlashAttention, the tiles
must evenly divide the sequence, the batch and the heads (otherwise the results are wrong or the constructor raises an exception, C51, C50). -/
structure Gpt2Config.Fits (c : Gpt2Config ℝ) (ids pos : Tensor) (S B tS tB D : Nat) (k : ActKind) : Prop where
  ids : ids.shape = [S, B] ∧ ids.basetile = [tS, tB]
  pos : pos.shape = [S] ∧ pos.basetile = [tS]
  sizes : 0 < S ∧ 0 < B ∧ 0 < tS ∧ 0 < tB
  vocab : 0 < c.vocabSize ∧ 0 < c.vocabEmbedTile ∧ 0 < c.maxPos
  embed : 0 < c.embedDim ∧ 0 < c.embedTile ∧ c.vocabEmbedTile ∣ c.embedTile
  inner : 0 < c.innerDim ∧ 0 < c.innerTile
  heads : c.embedDim = D * c.nHead ∧ 0 < c.nHeadTile
  flash : c.flash = true → tS ∣ S ∧ tB ∣ B ∧ c.nHeadTile ∣ c.nHead
  eps : 0 < c.eps
  act : (c.activation, k) ∈ [("relu", ActKind.relu), ("gelu", .gelu), ("gelutanh", .gelutanh)]

/-- Tasks which set the first tensors of the pairs to one, the second ones to zero, and nothing else. -/
def LnInit (ts : List (Task1 ℝ)) (ps : List (Moments × Moments)) : Prop :=
  ∀ s : Store ℝ, (∀ p ∈ ps, p.1.value.Ready s ∧ p.2.value.Ready s) → ∃ s', runAll1 ts s = .ok s' ∧
    OnlyChanged (ps.flatMap fun p => [p.1.value.id, p.2.value.id]) s s' ∧ ∀ p ∈ ps, p.1.value.Holds s' (fun _ => 1) ∧ p.2.value.Holds s' (fun _ => 0) ∧ p.1.value.Ready s' ∧ p.2.value.Ready s'

/-- Sizes and constants: embedding, sequence, heads, head, inner layer of the MLP, regularization of the normalizations, activation function of the MLP. -/
structure GptDims where
  E : Nat
  S : Nat
  H : Nat
  D : Nat
  inner : Nat
  eps : ℝ
  phi : ℝ → ℝ

/-- Self-attention, where `soft` makes the weights out of the scores. -/
def selfAttn (z : GptDims) (soft : (List Nat → ℝ) → List Nat → ℝ) (p : GptBlockP (List Nat → ℝ)) (x : List Nat → ℝ) : List Nat → ℝ :=
  attnCombine z.H z.D p.w (attnHeads z.S (attnProj z.E p.wv x p.bv) (soft (attnScore z.D (attnProj z.E p.wk x p.bk) (attnProj z.E p.wq x p.bq)))) p.bo

/-- The MLP: `W₂ φ(W₁ x + c₁) + c₂` along the first dimension. -/
def gptMlp (z : GptDims) (p : GptBlockP (List Nat → ℝ)) (x : List Nat → ℝ) : List Nat → ℝ :=
  linearOut .R .noTrans 1 [z.inner] (fun I => z.phi (linearOut .R .noTrans 1 [z.E] x p.w1 p.c1 I)) p.w2 p.c2

/-- A block: attention and MLP, both of the normalized argument and with a residual connection. -/
def gptBlockOut (z : GptDims) (soft : (List Nat → ℝ) → List Nat → ℝ) (x : List Nat → ℝ) (p : GptBlockP (List Nat → ℝ)) : List Nat → ℝ :=
  let x' := fun I => x I + selfAttn z soft p (lnOut 0 z.E z.eps p.g1 p.b1 x) I
  fun I => x' I + gptMlp z p (lnOut 0 z.E z.eps p.g2 p.b2 x') I

/-- Embedding of tokens plus embedding of positions. -/
def gptEmbed (wte wpe : List Nat → ℝ) (tok pos : List Nat → Nat) (I : List Nat) : ℝ :=
  wte [I.getD 0 0, tok (I.eraseIdx 0)] + wpe [I.getD 0 0, pos ((I.eraseIdx 2).eraseIdx 0)]

/-- The output of the model: embeddings, blocks, normalization, linear layer without bias. -/
def gptOut (z : GptDims) (soft : (List Nat → ℝ) → List Nat → ℝ) (p : GptP (List Nat → ℝ)) (tok pos : List Nat → Nat) : List Nat → ℝ :=
  linearOut .R .noTrans 1 [z.E] (lnOut 0 z.E z.eps p.gf p.bf (p.blocks.foldl (gptBlockOut z soft) (gptEmbed p.wte p.wpe tok pos))) p.lm 0

/-- The softmax over all positions of the scores, where the scores of positions which are not allowed are replaced by `val`. -/
def softAll (S : Nat) (allowed : List Nat → Bool) (val : ℝ) (s : List Nat → ℝ) : List Nat → ℝ := attnWeights S (attnMasked allowed val s)

/-- The contents of the mask: the element `(i, j)` is one if `i ≤ j`, otherwise zero. -/
def triuVal (I : List Nat) : ℝ := if I.getD 0 0 ≤ I.getD 1 0 then 1 else 0

/-- The softmax over the positions up to the position `j` of the query. -/
def softCausal (s : List Nat → ℝ) : List Nat → ℝ
  | [i, j, n, h] => if i ≤ j then Real.exp (s [i, j, n, h]) / ∑ i' ∈ range (j + 1), Real.exp (s [i', j, n, h]) else 0
  | _ => 0

end
end NNTile
