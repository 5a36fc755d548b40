import Verif.Model.Torch
import Verif.Spec.Gpt2
/-!
# The GPT2 model of PyTorch (Hugging Face `GPT2LMHeadModel`)

Its parameters, their names in the order of `named_parameters()`, and its output. The weights of `lm_head` and `wte` are not shared (in the examples and tests they are separated before
`from_torch`).
-/
namespace NNTile
open Finset

/-- The array has shape `S` and elements `x`. -/
def NdArray.Is {α : Type} (a : NdArray α) (S : List Nat) (x : List Nat → α) : Prop := a.shape = S ∧ ∀ I, InBox S I → a.elem I = some (x I)

/-- The parameters of a block: arrays, or their elements. -/
structure TorchBlock (A : Type) where
  ln1w : A
  ln1b : A
  attnw : A
  attnb : A
  projw : A
  projb : A
  ln2w : A
  ln2b : A
  fcw : A
  fcb : A
  outw : A
  outb : A

/-- Their names (the block has number `i`) and order. -/
def TorchBlock.named {A : Type} (i : Nat) (b : TorchBlock A) : List (List String × A) :=
  let h := ["transformer", "h", toString i]
  [(h ++ ["ln_1", "weight"], b.ln1w), (h ++ ["ln_1", "bias"], b.ln1b), (h ++ ["attn", "c_attn", "weight"], b.attnw), (h ++ ["attn", "c_attn", "bias"], b.attnb),
    (h ++ ["attn", "c_proj", "weight"], b.projw), (h ++ ["attn", "c_proj", "bias"], b.projb), (h ++ ["ln_2", "weight"], b.ln2w), (h ++ ["ln_2", "bias"], b.ln2b),
    (h ++ ["mlp", "c_fc", "weight"], b.fcw), (h ++ ["mlp", "c_fc", "bias"], b.fcb), (h ++ ["mlp", "c_proj", "weight"], b.outw), (h ++ ["mlp", "c_proj", "bias"], b.outb)]

/-- All parameters. -/
structure TorchGpt (A : Type) where
  wte : A
  wpe : A
  blocks : List (TorchBlock A)
  lnfw : A
  lnfb : A
  lm : A

/-- The blocks with numbers from `i`. -/
def namedBlocks {A : Type} : Nat → List (TorchBlock A) → List (List String × A)
  | _, [] => []
  | i, b :: bs => b.named i ++ namedBlocks (i + 1) bs

/-- `named_parameters()`. -/
def TorchGpt.named {A : Type} (t : TorchGpt A) : List (List String × A) :=
  [(["transformer", "wte", "weight"], t.wte), (["transformer", "wpe", "weight"], t.wpe)] ++ namedBlocks 0 t.blocks ++
  [(["transformer", "ln_f", "weight"], t.lnfw), (["transformer", "ln_f", "bias"], t.lnfb), (["lm_head", "weight"], t.lm)]

/-- The arrays have the shapes of the model and the given elements. -/
structure TorchBlock.Is {α : Type} (a : TorchBlock (NdArray α)) (E inner : Nat) (x : TorchBlock (List Nat → α)) : Prop where
  ln1w : a.ln1w.Is [E] x.ln1w
  ln1b : a.ln1b.Is [E] x.ln1b
  attnw : a.attnw.Is [E, 3 * E] x.attnw
  attnb : a.attnb.Is [3 * E] x.attnb
  projw : a.projw.Is [E, E] x.projw
  projb : a.projb.Is [E] x.projb
  ln2w : a.ln2w.Is [E] x.ln2w
  ln2b : a.ln2b.Is [E] x.ln2b
  fcw : a.fcw.Is [E, inner] x.fcw
  fcb : a.fcb.Is [inner] x.fcb
  outw : a.outw.Is [inner, E] x.outw
  outb : a.outb.Is [E] x.outb

structure TorchGpt.Is {α : Type} (a : TorchGpt (NdArray α)) (vocab maxPos E inner : Nat) (x : TorchGpt (List Nat → α)) : Prop where
  wte : a.wte.Is [vocab, E] x.wte
  wpe : a.wpe.Is [maxPos, E] x.wpe
  blocks : List.Forall₂ (fun a x => a.Is E inner x) a.blocks x.blocks
  lnfw : a.lnfw.Is [E] x.lnfw
  lnfb : a.lnfb.Is [E] x.lnfb
  lm : a.lm.Is [vocab, E] x.lm

noncomputable section

/-- Hidden states: batch, position, feature. -/
abbrev Hidden := Nat → Nat → Nat → ℝ

/-- `Conv1D` of Hugging Face: `x W + b` with `W` of shape (`k`, number of outputs). -/
def conv1d (k : Nat) (W b : List Nat → ℝ) (x : Hidden) : Hidden := fun n s o => ∑ i ∈ range k, x n s i * W [i, o] + b [o]

/-- `torch.nn.LayerNorm` over `E` features. -/
def torchNorm (E : Nat) (eps : ℝ) (w b : List Nat → ℝ) (x : Hidden) : Hidden := fun n s e =>
  let mean := (∑ i ∈ range E, x n s i) / E
  let var := (∑ i ∈ range E, (x n s i - mean) ^ 2) / E
  (x n s e - mean) / √(var + eps) * w [e] + b [e]

/-- Multi-head self-attention: `H` heads of size `D`, `E = H D`. `weight r j i` is the weight of position `i` for the query at position `j`, whose scores are `r`. -/
def torchAttn (E S H D : Nat) (weight : (Nat → ℝ) → Nat → Nat → ℝ) (p : TorchBlock (List Nat → ℝ)) (x : Hidden) : Hidden :=
  let qkv := conv1d E p.attnw p.attnb x
  let q := fun n h s d => qkv n s (h * D + d)
  let k := fun n h s d => qkv n s (E + (h * D + d))
  let v := fun n h s d => qkv n s (2 * E + (h * D + d))
  let score := fun n h j i => (∑ d ∈ range D, q n h j d * k n h i d) / √D
  let head := fun n h j d => ∑ i ∈ range S, weight (score n h j) j i * v n h i d
  conv1d E p.projw p.projb (fun n j o => head n (o / D) j (o % D))

/-- The MLP of a block. -/
def torchMlp (E inner : Nat) (phi : ℝ → ℝ) (p : TorchBlock (List Nat → ℝ)) (x : Hidden) : Hidden :=
  conv1d inner p.outw p.outb (fun n s o => phi (conv1d E p.fcw p.fcb x n s o))

/-- A block. -/
def torchBlock (z : GptDims) (weight : (Nat → ℝ) → Nat → Nat → ℝ) (x : Hidden) (p : TorchBlock (List Nat → ℝ)) : Hidden :=
  let x' : Hidden := fun n s e => x n s e + torchAttn z.E z.S z.H z.D weight p (torchNorm z.E z.eps p.ln1w p.ln1b x) n s e
  fun n s e => x' n s e + torchMlp z.E z.inner z.phi p (torchNorm z.E z.eps p.ln2w p.ln2b x') n s e

/-- The logits: batch, position, vocabulary; `tok n s` are the tokens, positions are numbered from zero. -/
def torchGpt (z : GptDims) (weight : (Nat → ℝ) → Nat → Nat → ℝ) (p : TorchGpt (List Nat → ℝ)) (tok : Nat → Nat → Nat) : Hidden := fun n s v =>
  ∑ e ∈ range z.E, torchNorm z.E z.eps p.lnfw p.lnfb
    (p.blocks.foldl (torchBlock z weight) (fun n s e => p.wte [tok n s, e] + p.wpe [s, e])) n s e * p.lm [v, e]

/-- The softmax over all `S` positions, where scores of later positions are replaced by `val` (Hugging Face: the least floating-point number). -/
def maskedSoftmax (S : Nat) (val : ℝ) (r : Nat → ℝ) (j i : Nat) : ℝ :=
  let m := fun i => if i ≤ j then r i else val
  Real.exp (m i) / ∑ i' ∈ range S, Real.exp (m i')

/-- The softmax over the positions up to that of the query. -/
def causalSoftmax (r : Nat → ℝ) (j i : Nat) : ℝ := if i ≤ j then Real.exp (r i) / ∑ i' ∈ range (j + 1), Real.exp (r i') else 0

end

/-- The contents of the NNTile parameters for the elements of the PyTorch parameters; `D` is the size of a head. -/
def TorchBlock.toNNTile {α : Type} (E D : Nat) (t : TorchBlock (List Nat → α)) : GptBlockP (List Nat → α) :=
  let w := fun (c : Nat) (I : List Nat) => t.attnw [I.getD 2 0, c * E + (I.getD 0 0 * D + I.getD 1 0)]
  let b := fun (c : Nat) (I : List Nat) => t.attnb [c * E + (I.getD 1 0 * D + I.getD 0 0)]
  ⟨t.ln1w, t.ln1b, w 0, w 1, w 2, b 0, b 1, b 2, fun I => t.projw [I.getD 1 0 * D + I.getD 2 0, I.getD 0 0], t.projb, t.ln2w, t.ln2b,
    fun I => t.fcw [I.getD 1 0, I.getD 0 0], t.fcb, fun I => t.outw [I.getD 1 0, I.getD 0 0], t.outb⟩

def TorchGpt.toNNTile {α : Type} (E D : Nat) (t : TorchGpt (List Nat → α)) : GptP (List Nat → α) :=
  ⟨fun I => t.wte [I.getD 1 0, I.getD 0 0], fun I => t.wpe [I.getD 1 0, I.getD 0 0], t.blocks.map (TorchBlock.toNNTile E D), t.lnfw, t.lnfb, t.lm⟩

/-- The elements of the PyTorch parameters for the contents of the NNTile parameters. -/
def GptBlockP.toTorch {α : Type} (E D : Nat) (p : GptBlockP (List Nat → α)) : TorchBlock (List Nat → α) where
  ln1w := p.g1
  ln1b := p.b1
  attnw I :=
    let j := I.getD 1 0
    (if j < E then p.wq else if j < 2 * E then p.wk else p.wv) [j % E / D, j % E % D, I.getD 0 0]
  attnb I :=
    let j := I.getD 0 0
    (if j < E then p.bq else if j < 2 * E then p.bk else p.bv) [j % E % D, j % E / D]
  projw I := p.w [I.getD 1 0, I.getD 0 0 / D, I.getD 0 0 % D]
  projb := p.bo
  ln2w := p.g2
  ln2b := p.b2
  fcw I := p.w1 [I.getD 1 0, I.getD 0 0]
  fcb := p.c1
  outw I := p.w2 [I.getD 1 0, I.getD 0 0]
  outb := p.c2

def GptP.toTorch {α : Type} (E D : Nat) (p : GptP (List Nat → α)) : TorchGpt (List Nat → α) :=
  ⟨fun I => p.wte [I.getD 1 0, I.getD 0 0], fun I => p.wpe [I.getD 1 0, I.getD 0 0], p.blocks.map (GptBlockP.toTorch E D), p.gf, p.bf, p.lm⟩

end NNTile
