import Verif.Model.Reduce
/-!
# `embedding`, `embedding_backward`

Memory cells of all tensors have one type `α` in the model; `asIdx` says how the contents of a cell of the integer tensor `index` are read. Neither the
kernels nor the tensor functions check the range of the tokens.
-/
namespace NNTile
variable {α : Type}

/-- The address `slice_size*token + i0`, which is out of bounds if it is negative. -/
def tokenOff (k_size : Nat) (token : Int) (i0 : Nat) : M Nat :=
  if token < 0 then .error (.ub "negative offset") else .ok (k_size * token.toNat + i0)

/-- `src/kernel/embedding/cpu.cc:24-60`. -/
def embeddingKernel (asIdx : α → Int) (m n k k_start k_size : Nat) (index vocab embed : Buf α) : M (Buf α) :=
  forN n (fun i2 embed => forN m (fun i1 embed => do
    let token ← index.rd (i2*m + i1)
    forN k_size (fun i0 embed => do
      let o ← tokenOff k_size (asIdx token) i0
      let v ← vocab.rd o
      embed.wr ((i2*k + k_start)*m + i1 + i0*m) v) embed) embed) embed

/-- `src/kernel/embedding_backward/cpu.cc:24-60`. -/
def embeddingBackwardKernel [FP α] (asIdx : α → Int) (m n k k_start k_size : Nat) (index embed vocab : Buf α) : M (Buf α) :=
  forN n (fun i2 vocab => forN m (fun i1 vocab => do
    let token ← index.rd (i2*m + i1)
    forN k_size (fun i0 vocab => do
      let o ← tokenOff k_size (asIdx token) i0
      let v ← vocab.rd o
      let e ← embed.rd ((i2*k + k_start)*m + i1 + i0*m)
      vocab.wr o (v + e)) vocab) vocab) vocab

/-- `starpu::embedding::submit`, `src/starpu/embedding.cc:114-145`. -/
def submitEmbedding (asIdx : α → Int) (m n k k_start k_size : Nat) (index vocab embed : Handle) : Task1 α :=
  task2 "embedding" index vocab .RW embed (fun i v e => embeddingKernel asIdx m n k k_start k_size i v e)

/-- `starpu::embedding_backward::submit`, `src/starpu/embedding_backward.cc:114-156`. -/
def submitEmbeddingBackward [FP α] (asIdx : α → Int) (m n k k_start k_size : Nat) (index embed vocab : Handle) (redux : Bool) : Task1 α :=
  task2 "embedding_backward" index embed (if redux then .REDUX else .RW) vocab
    (fun i e v => embeddingBackwardKernel asIdx m n k k_start k_size i e v)

/-- The checks, `src/tensor/embedding.cc:28-70`, `src/tensor/embedding_backward.cc:27-69`. The loop at lines 50-61 (49-60) begins at `i = axis`; if that is
negative then its first step reads `index.shape[axis]` out of bounds. -/
def embeddingCheck (index vocab embed : Tensor) (axis : Int) : M Unit := do
  throwIf (index.ndim + 1 ≠ embed.ndim) "index.ndim+1 != embed.ndim"
  throwIf (vocab.ndim ≠ 2) "vocab.ndim != 2"
  forCheck (axis - 1).toNat (fun i => checkPair index embed i i)
  if axis < 0 then
    .error (.ub "vector access out of bounds")
  else do
    let a := axis.toNat
    forCheck (index.ndim - a) (fun i => checkPair index embed (a + i) (a + i + 1))
    let e ← vget embed.shape a
    let v ← vget vocab.shape 0
    throwIf (e ≠ v) "embed.shape[axis] != vocab.shape[0]"
    let e ← vget embed.basetile a
    let v ← vget vocab.basetile 0
    throwIf (e % v ≠ 0) "embed.basetile_shape[axis] % vocab.basetile_shape[0] != 0"

/-- `vocab_per_embed` for a tile of shape `S`, `src/tensor/embedding.cc:97-98`, `src/tensor/embedding_backward.cc:92-93`. -/
def vocabPerEmbed (vocab : Tensor) (S : List Nat) (a : Nat) : Nat := (S.getD a 0 - 1) / vocab.basetile.getD 0 0 + 1

/-- `vocab_start` for the tile `t`, `src/tensor/embedding.cc:100-101`, `src/tensor/embedding_backward.cc:95-96`. -/
def vocabStart (vocab embed : Tensor) (t : List Nat) (a : Nat) : Nat := t.getD a 0 * embed.basetile.getD a 0 / vocab.basetile.getD 0 0

/-- `embedding_async`, `src/tensor/embedding.cc:24-119`. After the checks `axis < embed.ndim`, so the index of the tile of `index` computed at lines 85-93
is the index of the tile of `embed` without entry `axis`. -/
def embeddingAsync [FP α] (asIdx : α → Int) (index vocab embed : Tensor) (axis : Int) : M (List (Task1 α)) := do
  embeddingCheck index vocab embed axis
  let a := axis.toNat
  forTasks embed.ntiles (fun i => do
    let embed_tile_handle ← embed.handleL i
    let S := embed.tshapeL i
    let t := embed.tindex i
    let index_tile_handle ← index.handleAt (t.eraseIdx a)
    let l ← forTasks (vocabPerEmbed vocab S a) (fun jj => do
      let j := vocabStart vocab embed t a + jj
      let vocab_tile_handle ← vocab.handleL j
      let k_start := jj * vocab.basetile.getD 0 0
      let k_size := (vocab.tshapeL j).getD 0 0
      .ok [submitEmbedding asIdx (mOf S a) (nOf S a) (kOf S a) k_start k_size index_tile_handle vocab_tile_handle embed_tile_handle])
    .ok (submitClear embed_tile_handle :: l))

/-- `embedding_backward_async`, `src/tensor/embedding_backward.cc:23-118`. -/
def embeddingBackwardAsync [FP α] (asIdx : α → Int) (index embed vocab : Tensor) (axis : Int) (redux : Bool) : M (List (Task1 α)) := do
  embeddingCheck index vocab embed axis
  let a := axis.toNat
  forTasks embed.ntiles (fun i => do
    let embed_tile_handle ← embed.handleL i
    let S := embed.tshapeL i
    let t := embed.tindex i
    let index_tile_handle ← index.handleAt (t.eraseIdx a)
    forTasks (vocabPerEmbed vocab S a) (fun jj => do
      let j := vocabStart vocab embed t a + jj
      let vocab_tile_handle ← vocab.handleL j
      let k_start := jj * vocab.basetile.getD 0 0
      let k_size := (vocab.tshapeL j).getD 0 0
      .ok [submitEmbeddingBackward asIdx (mOf S a) (nOf S a) (kOf S a) k_start k_size index_tile_handle embed_tile_handle vocab_tile_handle redux]))

end NNTile
