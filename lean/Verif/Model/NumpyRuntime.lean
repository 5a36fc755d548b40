import Verif.Model.Runtime
import Verif.Model.Numpy
/-!
# Exchange of data with numpy beside the workers, `wrappers/python/nntile/nntile_core.cc:208-330`

What the main thread does in `from_array` and `to_array` of a tensor (the sequential model is `Verif/Model/Numpy.lean`). The codelets of `tensor::scatter` and `tensor::gather` are executed by workers; the main thread
acquires the tile which it copies from or to.

Simplification: MPI is disabled. The destructor of the temporary tensor does nothing after `tmp.unregister()` (C65).
-/
namespace NNTile
variable {α : Type}

/-- `tensor_from_array`, `wrappers/python/nntile/nntile_core.cc:208-267`. The tile of a tensor without dimensions has one element. -/
def fromArrayMain (T : Tensor) (tmpId : Nat) (array : NpArray α) : M (List (RtEvent α)) :=
  if T.ndim = 0 then do
    npCheckScalar array.shape
    let h ← T.handleL 0
    let b ← memcpyElems 1 array.data (Buf.undef 1)
    .ok [.acquire h .W, .poke h b, .release h .W]
  else do
    npCheckShape T array.shape
    let tmp ← newTensorD tmpId T.shape T.shape 1
    let h ← tmp.handleL 0
    let b ← memcpyElems T.shape.prod array.data (Buf.undef T.shape.prod)
    let tasks ← scatterAsync tmp T
    .ok ([.register (tmpId, 0) T.shape.prod, .acquire h .W, .poke h b, .release h .W] ++ blockingOp (tasks.map Task1.toTask) ++ [.unregister (tmpId, 0)])

/-- `tensor_to_array`, `wrappers/python/nntile/nntile_core.cc:269-330`: `seen` is what the main thread finds in the acquired memory; the result has the new contents of the array. -/
def toArrayMain (T : Tensor) (tmpId : Nat) (array : NpArray α) (seen : Buf α) : M (List (RtEvent α) × NpArray α) :=
  if T.ndim = 0 then do
    npCheckScalar array.shape
    let h ← T.handleL 0
    let b ← memcpyElems 1 seen array.data
    .ok ([.acquire h .R, .peek h seen, .release h .R], ⟨array.shape, b⟩)
  else do
    npCheckShape T array.shape
    let tmp ← newTensorD tmpId T.shape T.shape 1
    let tasks ← gatherAsync T tmp
    let h ← tmp.handleL 0
    let b ← memcpyElems T.shape.prod seen array.data
    .ok (.register (tmpId, 0) T.shape.prod :: blockingOp (tasks.map Task1.toTask) ++ [.acquire h .R, .peek h seen, .release h .R, .unregister (tmpId, 0)], ⟨array.shape, b⟩)

/-- What a Python program does with tensors: asynchronous operations (any of the functions whose names end in `_async`, or methods which call them), waiting, the exchange of data with numpy, and the end of tensors. -/
inductive NpOp (α : Type) where
  | async (ts : List (Task α))
  | wait
  | fromArray (T : Tensor) (tmpId : Nat) (array : NpArray α)
  | toArray (T : Tensor) (tmpId : Nat) (array : NpArray α)
  | unregister (T : Tensor)

/-- `Tensor::unregister`, `include/nntile/tensor/tensor.hh:128-134`. -/
def unregisterMain (T : Tensor) : List (RtEvent α) := (List.range T.ntiles).map fun i => .unregister (T.id, i)

/-- The main thread in a program: `NpMain ops outs main` says that it executes `ops` by doing `main`, and the arrays filled by `to_array` are `outs`. -/
inductive NpMain : List (NpOp α) → List (NpArray α) → List (RtEvent α) → Prop
  | nil : NpMain [] [] []
  | async {ts : List (Task α)} {ops outs main} (h : NpMain ops outs main) : NpMain (.async ts :: ops) outs (asyncOp ts ++ main)
  | wait {ops outs main} (h : NpMain ops outs main) : NpMain (.wait :: ops) outs (.waitAll :: main)
  | fromArray {T : Tensor} {tmpId : Nat} {array : NpArray α} {ops outs main m} (e : fromArrayMain T tmpId array = .ok m) (h : NpMain ops outs main) :
      NpMain (.fromArray T tmpId array :: ops) outs (m ++ main)
  | toArray {T : Tensor} {tmpId : Nat} {array : NpArray α} {ops outs main m seen out} (e : toArrayMain T tmpId array seen = .ok (m, out)) (h : NpMain ops outs main) :
      NpMain (.toArray T tmpId array :: ops) (out :: outs) (m ++ main)
  | unregister {T : Tensor} {ops outs main} (h : NpMain ops outs main) : NpMain (.unregister T :: ops) outs (unregisterMain T ++ main)

end NNTile
