import Verif.Model.Runtime
import Verif.Model.Layer
/-!
# Blocking methods of layers, `wrappers/python/nntile/layer/base_layer.py`

`forward` and `backward` of `BaseLayer` (lines 49-51, 56-58); no layer overrides them. They use the name `starpu`, which the module does not define: it imports `Tensor`, `TensorMoments`, `randn_async`, `np`,
`List`, `Union` (lines 14-16) and defines `BaseLayer`; Python looks a name up when it is used.

Simplification: if the asynchronous method raises an exception, the tasks which it submitted before are not part of the model.
-/
namespace NNTile
variable {α : Type}

/-- Names defined by the module, `wrappers/python/nntile/layer/base_layer.py:14-18`. -/
def baseLayerNames : List String := ["Tensor", "TensorMoments", "randn_async", "np", "List", "Union", "BaseLayer"]

/-- Lookup of a global name. -/
def lookupName (names : List String) (n : String) : M Unit := if n ∈ names then .ok () else .error (.throw "NameError")

/-- `self.forward_async(); starpu.wait_for_all()`: what the main thread does and how the method ends. -/
def callAndWait (names : List String) (async : M (List (Task1 α))) : List (RtEvent α) × M Unit :=
  match async with
  | .error e => ([], .error e)
  | .ok ts =>
    match lookupName names "starpu" with
    | .error e => (asyncOp (ts.map Task1.toTask), .error e)
    | .ok _ => (blockingOp (ts.map Task1.toTask), .ok ())

/-- `BaseLayer.forward`, `wrappers/python/nntile/layer/base_layer.py:49-51`; `fwd` and `bwd` are `forward_async` and `backward_async` of the layer. -/
def BaseLayer.forward (fwd _bwd : M (List (Task1 α))) : List (RtEvent α) × M Unit := callAndWait baseLayerNames fwd

/-- `BaseLayer.backward`, `wrappers/python/nntile/layer/base_layer.py:56-58`: also calls `forward_async`. -/
def BaseLayer.backward (fwd _bwd : M (List (Task1 α))) : List (RtEvent α) × M Unit := callAndWait baseLayerNames fwd

end NNTile
