import Verif.Model.Gpt2
import Verif.Model.OptimState
/-!
# Exchange of parameters with PyTorch, `wrappers/python/nntile/model/gpt2.py`

PyTorch tensors and numpy arrays are given by their shape and elements; `.cpu().detach().numpy()`, `torch.from_numpy` and `dtype` do not change them. A parameter of a PyTorch model is
given by its name, already split at the points, and its array. The conversion to Fortran order in the binding of `from_array` (`py::array::f_style | py::array::forcecast`) keeps the elements.
-/
namespace NNTile
variable {α : Type}

/-- An array with its shape and its elements (`none`: undefined). -/
structure NdArray (α : Type) where
  shape : List Nat
  elem : List Nat → Option α

/-- `a.T`: the dimensions in the reverse order. -/
def NdArray.T (a : NdArray α) : NdArray α := ⟨a.shape.reverse, fun I => a.elem I.reverse⟩

/-- `a.reshape(S)` for sizes `S` without `-1`: the elements keep their positions in the C order, in which the last index is the fastest one. -/
def NdArray.reshape (a : NdArray α) (S : List Nat) : M (NdArray α) := do
  throwIf (S.prod ≠ a.shape.prod) "cannot reshape"
  .ok ⟨S, fun I => a.elem (unlin a.shape.reverse (lin S.reverse I.reverse)).reverse⟩

/-- Length of the slice `lo:hi` of a dimension of size `n`. -/
def sliceLen (n lo hi : Nat) : Nat := min hi n - min lo n

/-- `a[lo:hi]` (`axis` 0) and `a[:, lo:hi]` (`axis` 1). -/
def NdArray.slice (a : NdArray α) (axis lo hi : Nat) : M (NdArray α) := do
  throwIf (a.shape.length ≤ axis) "IndexError"
  .ok ⟨a.shape.set axis (sliceLen (a.shape.getD axis 0) lo hi), fun I => a.elem (I.set axis (lo + I.getD axis 0))⟩

/-- `a[lo:hi] = b` and `a[:, lo:hi] = b`, where broadcasting is not modelled (another shape is an error). -/
def NdArray.setSlice (a : NdArray α) (axis lo hi : Nat) (b : NdArray α) : M (NdArray α) := do
  throwIf (a.shape.length ≤ axis) "IndexError"
  throwIf (b.shape ≠ a.shape.set axis (sliceLen (a.shape.getD axis 0) lo hi)) "RuntimeError"
  .ok ⟨a.shape, fun I => if lo ≤ I.getD axis 0 ∧ I.getD axis 0 < hi then b.elem (I.set axis (I.getD axis 0 - lo)) else a.elem I⟩

/-- The argument of `from_array`, in Fortran order. -/
def NdArray.toF (a : NdArray α) : NpArray α := ⟨a.shape, ⟨a.shape.prod, fun k => a.elem (unlin a.shape k)⟩⟩

/-- The elements of an array in Fortran order. -/
def NpArray.toNd (a : NpArray α) : NdArray α := ⟨a.shape, fun I => a.data.data (lin a.shape I)⟩

/-- `name.split(".")[-k]`. -/
def nameBack (name : List String) (k : Nat) : M String := do
  throwIf (name.length < k) "IndexError"
  .ok (name.getD (name.length - k) "")

/-- The attribute `value` of an element of the list of parameters. -/
def PyEntry.value : PyEntry → M Tensor
  | .moments m => .ok m.value
  | .list _ => .error (.throw "AttributeError")

/-- `parameters[nntile_p_idx].value.from_array(a)`, `nntile_p_idx += 1`, e.g. `wrappers/python/nntile/model/gpt2.py:307-309`. The state is `nntile_p_idx` and the contents of
all tensors. -/
def loadParam (params : List PyEntry) (tmpId : Nat) (a : NdArray α) (st : Nat × Store α) : M (Nat × Store α) := do
  let p ← pyItem params st.1
  let T ← p.value
  let s ← fromArray T tmpId a.toF st.2
  .ok (st.1 + 1, s)

/-- One pass of the loop over the PyTorch parameters in `GPT2Model.from_torch`, `wrappers/python/nntile/model/gpt2.py:304-347`; `E` is `attn_embed_dim`, `H` is `attn_nheads`. -/
def fromTorchParam (E H : Nat) (params : List PyEntry) (tmpId : Nat) (name : List String) (p : NdArray α) (st : Nat × Store α) : M (Nat × Store α) := do
  let layer ← nameBack name 2
  let last ← nameBack name 1
  if layer = "lm_head" then loadParam params tmpId p st
  else if layer = "c_attn" ∧ last = "weight" then
    forN 3 (fun i st => do
      let a ← p.slice 1 (i * E) ((i + 1) * E)
      let a ← a.T.reshape [H, E / H, E]
      loadParam params tmpId a st) st
  else if layer = "c_attn" ∧ last = "bias" then
    forN 3 (fun i st => do
      let a ← p.slice 0 (i * E) ((i + 1) * E)
      let a ← a.reshape [H, E / H]
      loadParam params tmpId a.T st) st
  else if layer = "c_proj" then do
    let up ← nameBack name 3
    if up = "attn" then
      if last = "weight" then do
        let a ← p.T.reshape [E, H, E / H]
        loadParam params tmpId a st
      else if last = "bias" then loadParam params tmpId p st
      else .ok st
    else loadParam params tmpId p.T st
  else loadParam params tmpId p.T st

/-- The loop, `wrappers/python/nntile/model/gpt2.py:304-347`. -/
def fromTorchParams (E H : Nat) (params : List PyEntry) (tmpId : Nat) : List (List String × NdArray α) → Nat × Store α → M (Nat × Store α)
  | [], st => .ok st
  | q :: qs, st => do
    let st ← fromTorchParam E H params tmpId q.1 q.2 st
    fromTorchParams E H params tmpId qs st

/-- `np.arange(n)` as a tensor of integers, `wrappers/python/nntile/model/gpt2.py:285-286`; `ofIdx` says how integers are stored. -/
def npArange (ofIdx : Nat → α) (n : Nat) : NpArray α := ⟨[n], ⟨n, fun k => some (ofIdx k)⟩⟩

/-- The tensors of tokens and positions and the model returned by `GPT2Model.from_torch`. -/
structure TorchedGpt2 (α : Type) where
  ids : Tensor
  pos : Tensor
  model : Gpt2Model α

/-- The constructor calls in `GPT2Model.from_torch`, `wrappers/python/nntile/model/gpt2.py:276-300`, without what they do to the contents of tensors. -/
def gpt2FromTorchInit [FP α] (B tB S tS : Nat) (c : Gpt2Config α) (val : α) (next : Nat) : M (TorchedGpt2 α) := do
  let pos ← newTensor next [S] [tS]
  let ids ← newTensor (next + 1) [S, B] [tS, tB]
  let g ← gpt2 ⟨ids, ids, false⟩ ⟨pos, pos, false⟩ c val (next + 2)
  .ok ⟨ids, pos, g⟩

/-- What `GPT2Model.from_torch` does to the contents of tensors, `wrappers/python/nntile/model/gpt2.py:285-347`. -/
def gpt2FromTorchLoad [FP α] (g : TorchedGpt2 α) (c : Gpt2Config α) (ofIdx : Nat → α) (torch : List (List String × NdArray α)) (tmpId : Nat) (s : Store α) : M (Store α) := do
  let s ← fromArray g.pos tmpId (npArange ofIdx (g.pos.shape.getD 0 0)) s
  let s ← g.model.setup tmpId s
  throwIf (c.nHead = 0) "ZeroDivisionError"
  let st ← fromTorchParams c.embedDim c.nHead g.model.model.parameters tmpId torch (0, s)
  .ok st.2

/-- `p_np = np.array(np.zeros(shape), order="F")`, `parameters[nntile_p_idx].value.to_array(p_np)`, `nntile_p_idx += 1`, e.g. `wrappers/python/nntile/model/gpt2.py:224-227,270-274`;
without a given shape it is that of the tensor. -/
def storeParam [FP α] (params : List PyEntry) (tmpId : Nat) (shape : Option (List Nat)) (st : Nat × Store α) : M (NdArray α × Nat × Store α) := do
  let p ← pyItem params st.1
  let T ← p.value
  let r ← toArray T tmpId (npZeros (shape.getD T.shape)) st.2
  .ok (r.1.toNd, st.1 + 1, r.2)

/-- One pass of the loop in `GPT2Model.to_torch`, `wrappers/python/nntile/model/gpt2.py:221-274`: the new array of the parameter, and the new state. -/
def toTorchParam [FP α] (E : Nat) (params : List PyEntry) (tmpId : Nat) (name : List String) (p : NdArray α) (st : Nat × Store α) : M (NdArray α × Nat × Store α) := do
  let layer ← nameBack name 2
  let last ← nameBack name 1
  if layer = "lm_head" then storeParam params tmpId (some p.shape) st
  else if layer = "c_attn" ∧ last = "weight" then
    forN 3 (fun i r => do
      let q ← storeParam params tmpId none r.2
      let w ← p.slice 1 (i * E) ((i + 1) * E)
      let a ← q.1.reshape w.T.shape
      let p' ← r.1.setSlice 1 (i * E) ((i + 1) * E) a.T
      .ok (p', q.2)) (p, st)
  else if layer = "c_attn" ∧ last = "bias" then
    forN 3 (fun i r => do
      let q ← storeParam params tmpId none r.2
      let a ← q.1.T.reshape [q.1.T.shape.prod]
      let p' ← r.1.setSlice 0 (i * E) ((i + 1) * E) a
      .ok (p', q.2)) (p, st)
  else if layer = "c_proj" then do
    let up ← nameBack name 3
    if up = "attn" then do
      let q ← storeParam params tmpId none st
      if last = "weight" then do
        let a ← q.1.reshape p.T.shape
        .ok (a.T, q.2)
      else if last = "bias" then .ok (q.1, q.2)
      else .ok (p, st.1, q.2.2)
    else do
      let q ← storeParam params tmpId none st
      .ok (q.1.T, q.2)
  else do
    let q ← storeParam params tmpId none st
    .ok (q.1.T, q.2)

/-- `GPT2Model.to_torch`, `wrappers/python/nntile/model/gpt2.py:216-274`: the new arrays of the parameters of the PyTorch model. (`attn_head_size`, line 220, is not used; a model
without heads cannot be constructed.) -/
def gpt2ToTorch [FP α] (E : Nat) (params : List PyEntry) (tmpId : Nat) : List (List String × NdArray α) → Nat × Store α → M (List (List String × NdArray α) × Nat × Store α)
  | [], st => .ok ([], st)
  | q :: qs, st => do
    let r ← toTorchParam E params tmpId q.1 q.2 st
    let r' ← gpt2ToTorch E params tmpId qs r.2
    .ok ((q.1, r.1) :: r'.1, r'.2)

end NNTile
