import Verif.Model.Optim
import Verif.Model.Numpy
/-!
# Saving and loading of the optimizer states, `wrappers/python/nntile/optimizer/`

A file is the pickled dictionary, here a record; `pickle.dump` followed by `pickle.load` gives the same dictionary (not modelled). `self.dtype` is the element type of the
tensors. `ndarray.copy()` changes the order of the elements in memory, not the array; pybind11 converts it back (see `Verif/Model/Numpy.lean`). `num_iter` is an argument, as in
`Verif/Model/Optim.lean`. `tmpId` is the identity of the temporary tensors of `to_array` and `from_array`; only one of them exists at a time.
-/
namespace NNTile
variable {α : Type}

/-- Element `i` of a Python list. -/
def pyItem {β : Type} (l : List β) (i : Nat) : M β := match l[i]? with
  | some x => .ok x
  | none => .error (.throw "IndexError")

/-- `np.array(np.zeros(shape, dtype), order="F")`. -/
def npZeros [FP α] (shape : List Nat) : NpArray α := ⟨shape, ⟨shape.prod, fun _ => some 0⟩⟩

/-- `m = np.array(np.zeros(T.shape, dtype), order="F"); T.to_array(m)`, e.g. `wrappers/python/nntile/optimizer/adam.py:106-107`. -/
def saveArray [FP α] (tmpId : Nat) (T : Tensor) (s : Store α) : M (NpArray α × Store α) := toArray T tmpId (npZeros T.shape) s

/-- The loop of `save_state` over the first and second moments, `wrappers/python/nntile/optimizer/adam.py:105-112,212-225`, `adamw.py:77-90`. `put` is what is appended to the
lists for an array. -/
def saveMoments [FP α] {σ : Type} (put : NpArray α → List σ) (first second : List Tensor) (tmpId : Nat) (s : Store α) : M ((List σ × List σ) × Store α) :=
  forN first.length (fun i st => do
    let m ← pyTensor first i
    let a ← saveArray tmpId m st.2
    let v ← pyTensor second i
    let b ← saveArray tmpId v a.2
    .ok ((st.1.1 ++ put a.1, st.1.2 ++ put b.1), b.2)) (([], []), s)

/-- The loop of `load_state` over the stored first and second moments, `wrappers/python/nntile/optimizer/adam.py:147-149,257-259`, `adamw.py:122-128`. `conv` is the conversion
of a stored object to an array. -/
def loadMoments {σ : Type} (conv : σ → M (NpArray α)) (first second : List Tensor) (fs ss : List σ) (tmpId : Nat) (s : Store α) : M (Store α) :=
  forN fs.length (fun i s => do
    let m ← pyTensor first i
    let f ← pyItem fs i
    let a ← conv f
    let s1 ← fromArray m tmpId a s
    let v ← pyTensor second i
    let g ← pyItem ss i
    let b ← conv g
    fromArray v tmpId b s1) s

/-! ### `Adam` -/

/-- The dictionary stored by `Adam`, `wrappers/python/nntile/optimizer/adam.py:119-129`. -/
structure AdamFile (α : Type) where
  firstMoments : List (NpArray α)
  secondMoments : List (NpArray α)
  maxSecondMoments : List (NpArray α)
  numIter : Nat
  beta1 : α
  beta2 : α
  lr : α
  eps : α
  weightDecay : α

/-- The loop over `max_second_moments`, `wrappers/python/nntile/optimizer/adam.py:114-117`. It uses the variable `i` of the loop before, which is the index of the last first
moment (unbound if there is none). -/
def Adam.saveMax [FP α] (o : Adam α) (tmpId : Nat) (s : Store α) : M (List (NpArray α) × Store α) :=
  forN o.maxSecondMoments.length (fun _ st => do
    throwIf (o.firstMoments.length = 0) "NameError"
    let w ← pyTensor o.maxSecondMoments (o.firstMoments.length - 1)
    let a ← saveArray tmpId w st.2
    .ok (st.1 ++ [a.1], a.2)) ([], s)

/-- `Adam.save_state`, `wrappers/python/nntile/optimizer/adam.py:101-131`: the stored dictionary, and the store. -/
def Adam.saveState [FP α] (o : Adam α) (numIter : Nat) (tmpId : Nat) (s : Store α) : M (AdamFile α × Store α) := do
  let r ← saveMoments (fun a => [a]) o.firstMoments o.secondMoments tmpId s
  let w ← o.saveMax tmpId r.2
  .ok (⟨r.1.1, r.1.2, w.1, numIter, o.beta1, o.beta2, o.lr, o.eps, o.weightDecay⟩, w.2)

/-- `Adam.load_state`, `wrappers/python/nntile/optimizer/adam.py:133-152`: the object, its `num_iter`, and the store. -/
def Adam.loadState (o : Adam α) (f : AdamFile α) (tmpId : Nat) (s : Store α) : M ((Adam α × Nat) × Store α) := do
  let s1 ← loadMoments Except.ok o.firstMoments o.secondMoments f.firstMoments f.secondMoments tmpId s
  let s2 ← forN f.maxSecondMoments.length (fun i s => do
    let w ← pyTensor o.maxSecondMoments i
    let a ← pyItem f.maxSecondMoments i
    fromArray w tmpId a s) s1
  .ok (({ o with lr := f.lr, beta1 := f.beta1, beta2 := f.beta2, eps := f.eps, weightDecay := f.weightDecay }, f.numIter), s2)

/-! ### `FusedAdam`, `FusedAdamW` -/

/-- An element of the stored lists: a numpy array or a torch tensor. -/
inductive StoredArray (α : Type) where
  | numpy (a : NpArray α)
  | torch (a : NpArray α)

/-- Roundings to the torch types. -/
structure TorchTypes (α : Type) where
  float16 : α → α
  bfloat16 : α → α
  float32 : α → α

/-- Conversion of all elements. -/
def NpArray.map (r : α → α) (a : NpArray α) : NpArray α := ⟨a.shape, ⟨a.data.size, fun k => (a.data.data k).map r⟩⟩

/-- The dictionary stored by `FusedAdam` and `FusedAdamW`, `wrappers/python/nntile/optimizer/adam.py:227-238`, `adamw.py:92-103`. -/
structure FusedFile (α : Type) where
  firstMoments : List (StoredArray α)
  secondMoments : List (StoredArray α)
  numIter : Int
  beta1 : α
  beta2 : α
  lr : α
  warmup : Option (α × Int)
  eps : α
  weightDecay : α

/-- What `FusedAdam.save_state` appends, `wrappers/python/nntile/optimizer/adam.py:217-225`. -/
def Fused.adamPut (t : TorchTypes α) (dtype : String) (a : NpArray α) : List (StoredArray α) :=
  if dtype = "fp32" then [.numpy a]
  else if dtype = "fp16" then [.torch (a.map t.float16)]
  else if dtype = "bf16" then [.torch (a.map t.bfloat16)]
  else []

/-- What `FusedAdamW.save_state` appends, `wrappers/python/nntile/optimizer/adamw.py:82-90`. -/
def Fused.adamwPut (t : TorchTypes α) (dtype : String) (a : NpArray α) : List (StoredArray α) :=
  if dtype = "fp32" then [.torch a]
  else if dtype = "fp16" then [.torch (a.map t.float16)]
  else if dtype = "bf16" then [.torch (a.map t.bfloat16)]
  else []

/-- `x.to(torch.float32)`: torch tensors have this method, numpy arrays do not. -/
def StoredArray.toFloat32 (t : TorchTypes α) : StoredArray α → M (NpArray α)
  | .numpy _ => .error (.throw "AttributeError")
  | .torch a => .ok (a.map t.float32)

/-- `save_state` of both classes, `wrappers/python/nntile/optimizer/adam.py:209-240`, `adamw.py:74-105`. -/
def Fused.saveState [FP α] (put : NpArray α → List (StoredArray α)) (o : Fused α) (numIter : Int) (tmpId : Nat) (s : Store α) : M (FusedFile α × Store α) := do
  let r ← saveMoments put o.firstMoments o.secondMoments tmpId s
  .ok (⟨r.1.1, r.1.2, numIter, o.beta1, o.beta2, o.lr, o.warmup, o.eps, o.weightDecay⟩, r.2)

/-- `FusedAdam.save_state(path, dtype)` and `FusedAdamW.save_state(path, dtype)`. -/
def Fused.adamSave [FP α] (t : TorchTypes α) (dtype : String) (o : Fused α) (numIter : Int) (tmpId : Nat) (s : Store α) : M (FusedFile α × Store α) :=
  o.saveState (Fused.adamPut t dtype) numIter tmpId s
def Fused.adamwSave [FP α] (t : TorchTypes α) (dtype : String) (o : Fused α) (numIter : Int) (tmpId : Nat) (s : Store α) : M (FusedFile α × Store α) :=
  o.saveState (Fused.adamwPut t dtype) numIter tmpId s

/-- `load_state` of both classes, `wrappers/python/nntile/optimizer/adam.py:242-259`, `adamw.py:107-129`. -/
def Fused.loadState (t : TorchTypes α) (o : Fused α) (f : FusedFile α) (tmpId : Nat) (s : Store α) : M ((Fused α × Int) × Store α) := do
  let s1 ← loadMoments (StoredArray.toFloat32 t) o.firstMoments o.secondMoments f.firstMoments f.secondMoments tmpId s
  .ok (({ o with lr := f.lr, warmup := f.warmup, beta1 := f.beta1, beta2 := f.beta2, eps := f.eps, weightDecay := f.weightDecay }, f.numIter), s1)

end NNTile
