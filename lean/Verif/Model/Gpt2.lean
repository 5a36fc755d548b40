import Verif.Model.DeepModels
import Verif.Model.Numpy
/-!
# Model of `GPT2Model`, `wrappers/python/nntile/model/gpt2.py`

The flag `fp32_fast_tf32` is not modelled, see `Linear`. `next` stands for `next_tag`, it numbers the new tensors. `val` is the number which
the attention layers put in place of masked scores, see `Attention`.
-/
namespace NNTile
variable {α : Type}

/-- `GPT2Config`, `wrappers/python/nntile/model/gpt2.py:26-47`. -/
structure Gpt2Config (α : Type) where
  vocabSize : Nat
  vocabEmbedTile : Nat
  embedDim : Nat
  embedTile : Nat
  maxPos : Nat
  innerDim : Nat
  innerTile : Nat
  eps : α
  nLayers : Nat
  nHead : Nat
  nHeadTile : Nat
  activation : String
  flash : Bool
  redux : Bool

/-- `Embedding.generate_simple`, `layers.append`, `activations.extend`, `wrappers/python/nntile/model/gpt2.py:147-157`. -/
def Builder.embedding (b : Builder α) (x : Tensor) (axis : Int) (vocabSize embSize yTile wTile : Nat) : M (Builder α) := do
  let l ← EmbeddingLayer.generate x axis vocabSize embSize yTile wTile b.next
  .ok ⟨b.acts ++ [l.y], b.layers ++ [.embedding l], b.next + 4⟩

/-- The same with `AddSlice.generate_simple`, `wrappers/python/nntile/model/gpt2.py:159-162`. -/
def Builder.addSlice (b : Builder α) (x y : Moments) (axis : Int) (redux : Bool) : M (Builder α) := do
  let l ← AddSliceLayer.generate x y axis b.next redux
  .ok ⟨b.acts ++ [l.u], b.layers ++ [.addSlice l], b.next + 2⟩

/-- The same with `Add.generate_simple`, e.g. `wrappers/python/nntile/model/gpt2.py:177-180`. -/
def Builder.add (b : Builder α) (x y : Moments) : M (Builder α) := do
  let l ← AddLayer.generate x y b.next
  .ok ⟨b.acts ++ [l.res], b.layers ++ [.add l], b.next + 2⟩

/-- The same with `LayerNorm.generate_simple`, e.g. `wrappers/python/nntile/model/gpt2.py:165-168`, with the tasks which initialize the parameters. -/
def Builder.layerNorm [FP α] (b : Builder α) (x : Moments) (axis : Int) (eps : α) (redux : Bool) : M (Builder α × List (Task1 α)) := do
  let r ← LayerNorm.generate x axis eps b.next redux
  .ok (⟨b.acts ++ [r.1.y], b.layers ++ [.layerNorm r.1], b.next + 10⟩, r.2)

/-- The same with `AttLayer.generate_simple`, `wrappers/python/nntile/model/gpt2.py:130-133,170-175`. -/
def Builder.attention (b : Builder α) (flash : Bool) (x : Moments) (nHead nHeadTile : Nat) (mask : Tensor) (val : α) (redux : Bool) : M (Builder α) := do
  let l ← (if flash then Attention.flashGenerate x x x nHead nHeadTile b.next true (some mask) val redux
    else Attention.generate x x x nHead nHeadTile b.next true (some mask) val redux)
  .ok ⟨b.acts ++ [l.y], b.layers ++ [if flash then .flash l else .attention l], b.next + 38⟩

/-- One pass of the loop, `wrappers/python/nntile/model/gpt2.py:165-197`. The lists `gpt_block.activations` and `gpt_block.layers` are those which the constructor of `GPT2MLP`
gives to `BaseModel.__init__`. -/
def gptBlock [FP α] (c : Gpt2Config α) (mask : Tensor) (val : α) (b : Builder α) : M (Builder α × List (Task1 α)) := do
  let r1 ← b.layerNorm (← b.back 1) 0 c.eps c.redux
  let b ← r1.1.attention c.flash (← r1.1.back 1) c.nHead c.nHeadTile mask val c.redux
  let b ← b.add (← b.back 3) (← b.back 1)
  let r2 ← b.layerNorm (← b.back 1) 0 c.eps c.redux
  let m ← gpt2MlpBuild (← r2.1.back 1) c.embedDim c.embedTile c.innerDim c.innerTile c.activation c.redux r2.1.next
  let b : Builder α := ⟨r2.1.acts ++ m.acts.drop 1, r2.1.layers ++ m.layers, m.next⟩
  let b ← b.add (← b.back 5) (← b.back 1)
  .ok (b, r1.2 ++ r2.2)

/-- The loop, `wrappers/python/nntile/model/gpt2.py:164-197`. -/
def gptBlocks [FP α] (c : Gpt2Config α) (mask : Tensor) (val : α) : Nat → Builder α → M (Builder α × List (Task1 α))
  | 0, b => .ok (b, [])
  | n + 1, b => do
    let r ← gptBlock c mask val b
    let r' ← gptBlocks c mask val n r.1
    .ok (r'.1, r.2 ++ r'.2)

/-- The attributes of the model (`next` is `next_tag`), and what the constructor has submitted: `self.mask.from_array(mask_np)` and `tasks`. -/
structure Gpt2Model (α : Type) where
  model : BaseModel α
  mask : Tensor
  tasks : List (Task1 α)
  next : Nat

/-- `mask_np`, `wrappers/python/nntile/model/gpt2.py:143-144`: element `(i, j)` of `np.triu(np.ones((n, n)))` is true if `i <= j`. -/
def triuMask [FP α] (n : Nat) : NpArray α := ⟨[n, n], ⟨n * n, fun k => some (if k % n ≤ k / n then 1 else 0)⟩⟩

/-- `GPT2Model.__init__`, `wrappers/python/nntile/model/gpt2.py:111-214`. -/
def gpt2 [FP α] (ids pos : Moments) (c : Gpt2Config α) (val : α) (next : Nat) : M (Gpt2Model α) := do
  let n ← pyIndex ids.value.shape 0
  let t ← pyIndex ids.value.basetile 0
  let mask ← newTensor next [n, n] [t, t]
  let b : Builder α := ⟨[ids, pos], [], next + 1⟩
  let b ← b.embedding ids.value 0 c.vocabSize c.embedDim c.embedTile c.vocabEmbedTile
  let b ← b.embedding pos.value 0 c.maxPos c.embedDim c.embedTile c.vocabEmbedTile
  let b ← b.addSlice (← b.back 2) (← b.back 1) 2 c.redux
  let r ← gptBlocks c mask val c.nLayers b
  let r' ← r.1.layerNorm (← r.1.back 1) 0 c.eps c.redux
  let b ← r'.1.linear (← r'.1.back 1) .R 1 [c.vocabSize] [c.vocabSize] false c.redux
  .ok ⟨BaseModel.init b.acts b.layers, mask, r.2 ++ r'.2, b.next⟩

/-- What the constructor does to the contents of tensors; `tmpId` is the identity of the temporary tensor of `from_array`. -/
def Gpt2Model.setup [FP α] (g : Gpt2Model α) (tmpId : Nat) (s : Store α) : M (Store α) := do
  let s ← fromArray g.mask tmpId (triuMask (g.mask.shape.getD 0 0)) s
  runAll1 g.tasks s

end NNTile
