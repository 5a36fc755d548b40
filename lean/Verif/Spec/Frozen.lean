import Verif.Model.BaseModel
/-! Layers and models which differ only in gradients that are not required (`C81`). -/
namespace NNTile
variable {α : Type}

/-- The same value and the same flag, and, if the gradient is required, the same gradient. If it is not required, one of them may have `None` instead of a gradient. -/
def Moments.Alike (m m' : Moments) : Prop := m.value = m'.value ∧ m.gradRequired = m'.gradRequired ∧ (m.gradRequired = true → m.grad = m'.grad)

/-- Both without a bias, or with biases which differ only in a gradient that is not required. -/
def BiasAlike : Option Moments → Option Moments → Prop
  | none, none => True
  | some b, some b' => b.Alike b'
  | _, _ => False

def Act.Alike (l l' : Act) : Prop := l.x.Alike l'.x ∧ l.y = l'.y ∧ l.kind = l'.kind

structure Linear.Alike (l l' : Linear) : Prop where
  x : l.x.Alike l'.x
  w : l.w.Alike l'.w
  b : BiasAlike l.b l'.b
  rest : l' = { l with x := l'.x, w := l'.w, b := l'.b }

structure Attention.Alike (l l' : Attention α) : Prop where
  xq : l.xq.Alike l'.xq
  xk : l.xk.Alike l'.xk
  xv : l.xv.Alike l'.xv
  wq : l.wq.Alike l'.wq
  wk : l.wk.Alike l'.wk
  wv : l.wv.Alike l'.wv
  w : l.w.Alike l'.w
  biasQ : BiasAlike l.biasQ l'.biasQ
  biasK : BiasAlike l.biasK l'.biasK
  biasV : BiasAlike l.biasV l'.biasV
  biasOut : BiasAlike l.biasOut l'.biasOut
  rest : l' = { l with xq := l'.xq, xk := l'.xk, xv := l'.xv, wq := l'.wq, wk := l'.wk, wv := l'.wv, w := l'.w, biasQ := l'.biasQ, biasK := l'.biasK, biasV := l'.biasV, biasOut := l'.biasOut }

/-- Layers which look at `grad_required` differ only in gradients that are not required; other layers are the same. -/
inductive PyLayer.Alike : PyLayer α → PyLayer α → Prop
  | act {l l' : Act} (h : l.Alike l') : PyLayer.Alike (.act l) (.act l')
  | linear {l l' : Linear} (h : l.Alike l') : PyLayer.Alike (.linear l) (.linear l')
  | attention {l l' : Attention α} (h : l.Alike l') : PyLayer.Alike (.attention l) (.attention l')
  | flash {l l' : Attention α} (h : l.Alike l') : PyLayer.Alike (.flash l) (.flash l')
  | same (l : PyLayer α) : PyLayer.Alike l l

/-- Elements of the lists of activations and parameters. -/
inductive PyEntry.Alike : PyEntry → PyEntry → Prop
  | moments {m m' : Moments} (h : m.Alike m') : PyEntry.Alike (.moments m) (.moments m')
  | list (l : List Moments) : PyEntry.Alike (.list l) (.list l)

structure BaseModel.Alike (m m' : BaseModel α) : Prop where
  activations : List.Forall₂ PyEntry.Alike m.activations m'.activations
  parameters : List.Forall₂ PyEntry.Alike m.parameters m'.parameters
  layers : List.Forall₂ PyLayer.Alike m.layers m'.layers

/-- The same value and the same gradient; the flags may be different. -/
def Moments.SameTensors (m m' : Moments) : Prop := m.value = m'.value ∧ m.grad = m'.grad

end NNTile
