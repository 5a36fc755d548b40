import Verif.Model.Core
/-!
# The programs `gpt2_custom_generate.py`, `gpt2_training.py`, `gpt2_custom_training.py` and the loaders of images

How `wrappers/python/examples/gpt2_custom_generate.py` continues a text, and how `wrappers/python/examples/gpt2_training.py` cuts the tokens of the training set into batches, and how `wrappers/python/examples/mlp_mixer_data_preparation.py` groups images.

Simplifications: what the model of NNTile computes is a parameter here (it is the subject of C48, C61 and C87); the tokenizer is not modelled: a line of the file is given by its tokens. Only minibatches of one sequence
are modelled in `gpt2_custom_generate.py` (`from_array` rejects the array for others). The checks of tile sizes in `gpt2_training.py` are not modelled here.
-/
namespace NNTile
variable {α : Type}

/-- The position of `a[i]` in an axis of length `n`: in Python negative indices count from the end. -/
def pyAt (n : Nat) (i : Int) : M Nat :=
  if 0 ≤ i ∧ i < n then .ok i.toNat
  else if i < 0 ∧ -n ≤ i then .ok (n + i).toNat
  else .error (.throw "IndexError")

/-- `argmax` of `f 0`, …, `f n` in numpy: the first of the largest elements. NaN is not modelled. -/
def npArgmax [LT α] [DecidableLT α] (f : Nat → α) : Nat → Nat
  | 0 => 0
  | n + 1 => if f (npArgmax f n) < f (n + 1) then n + 1 else npArgmax f n

/-- The prompt, `wrappers/python/examples/gpt2_custom_generate.py:174-184`: `lines` are the tokens of the lines of the file; the result is `input_numpy[0]` and `input_tokens_start`. An array of rows of different lengths
or without rows has no second axis (or is not created, depending on the version of numpy). A line has at least one token. -/
def genPrompt (nPositions eos : Nat) (lines : List (List Nat)) : M (List Nat × Nat) := do
  throwIf (lines = [] ∨ ∃ l ∈ lines, l.length ≠ (lines.headD []).length) "ValueError or IndexError"
  throwIf (lines.headD [] = []) "ValueError"
  throwIf (nPositions < (lines.headD []).length - 1) "ValueError"
  .ok ((lines.headD []).dropLast ++ List.replicate (nPositions - ((lines.headD []).length - 1)) eos, (lines.headD []).length - 1)

/-- The loop, `wrappers/python/examples/gpt2_custom_generate.py:189-201`: `out x v s` is the logit of the token `v` at the position `s` for the input `x`, and `i` the number of the step. -/
def genLoop [LT α] [DecidableLT α] (nPositions vocab : Nat) (out : List Nat → Nat → Nat → α) (start : Nat) : Nat → Nat → List Nat → M (List Nat)
  | 0, _, x => .ok x
  | n + 1, i, x => do
    let s ← pyAt nPositions ((start : Int) + i - 1)
    let t ← pyAt nPositions ((start : Int) + i)
    genLoop nPositions vocab out start n (i + 1) (x.set t (npArgmax (fun v => out x v s) (min 50257 vocab - 1)))

/-- The program, `wrappers/python/examples/gpt2_custom_generate.py:173-201`: `input_numpy[0]` at the end, and `input_tokens_start`. -/
def gptGenerate [LT α] [DecidableLT α] (nPositions vocab eos : Nat) (out : List Nat → Nat → Nat → α) (lines : List (List Nat)) (ntokens : Nat) : M (List Nat × Nat) := do
  let p ← genPrompt nPositions eos lines
  let x ← genLoop nPositions vocab out p.2 ntokens 0 p.1
  .ok (x, p.2)

/-- A minibatch: the arrays which `from_array` copies to the input `x` of the model and to the labels `y` of the loss; the element `[s, b]` is `x s b`. -/
structure GptMinibatch where
  x : Nat → Nat → Nat
  y : Nat → Nat → Nat

/-- The batches, `wrappers/python/examples/gpt2_training.py:99-104, 461-469, 532-545` and `wrappers/python/examples/gpt2_custom_training.py:120-125, 278-286, 302-315`: `n` is `config.n_positions`. -/
def gptBatches (tokens : List Nat) (n batchSize minibatchSize : Nat) : M (List (List GptMinibatch)) := do
  throwIf (batchSize = 0) "AssertionError"
  throwIf (minibatchSize = 0) "AssertionError"
  throwIf (batchSize % minibatchSize ≠ 0) "AssertionError"
  let numMinibatch := batchSize / minibatchSize
  let numBatches := tokens.length / (n + 1) / batchSize
  let truncated := tokens.take (numBatches * batchSize * (n + 1))
  throwIf (truncated.length ≠ numBatches * numMinibatch * minibatchSize * (n + 1)) "ValueError"
  let elem := fun i j b s => truncated.getD (((i * numMinibatch + j) * minibatchSize + b) * (n + 1) + s) 0
  .ok ((List.range numBatches).map fun i => (List.range numMinibatch).map fun j => ⟨fun s b => elem i j b s, fun s b => elem i j b (s + 1)⟩)

/-- The numbers of the images in the minibatches, `wrappers/python/examples/mlp_mixer_data_preparation.py:46-48, 65-69` (the same in the other three loaders, lines 85-87 and 105-109, 125-127 and 134-138, 143-145 and
153-157): of each image the patches (C71) and the label are put at its place in the minibatch. Both integer divisions (one goes through floats, which are exact here) raise for zero. -/
def imageBatches (total batchSize minibatchSize : Nat) : M (List (List (List Nat))) := do
  throwIf (batchSize = 0) "ZeroDivisionError"
  throwIf (minibatchSize = 0) "ZeroDivisionError"
  let nBatches := total / batchSize
  let nMinibatches := batchSize / minibatchSize
  .ok ((List.range nBatches).map fun i => (List.range nMinibatches).map fun j => (List.range minibatchSize).map fun k => i * batchSize + j * minibatchSize + k)

end NNTile
