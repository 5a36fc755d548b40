import Verif.Spec.Frozen
import Verif.Model.Optim
/-! Lemmas for `C81`. -/
namespace NNTile
variable {α : Type}

theorem Moments.Alike.refl (m : Moments) : m.Alike m := ⟨rfl, rfl, fun _ => rfl⟩

theorem BiasAlike.refl (b : Option Moments) : BiasAlike b b := by
  cases b
  · trivial
  · exact Moments.Alike.refl _

theorem Moments.Alike.when {m m' : Moments} (h : m.Alike m') (f : Tensor → M (List (Task1 α))) : whenAsync m.gradRequired (f m.grad) = whenAsync m'.gradRequired (f m'.grad) := by
  obtain ⟨-, h2, h3⟩ := h
  rw [← h2]
  unfold whenAsync
  split
  · rename_i hc
    rw [h3 hc]
  · rfl

variable [FP α]

theorem Act.Alike.forward {l l' : Act} (h : l.Alike l') : l.forwardAsync (α := α) = l'.forwardAsync := by
  obtain ⟨⟨h1, -⟩, h2, h3⟩ := h
  unfold Act.forwardAsync
  rw [h1, h2, h3]

theorem Act.Alike.backward {l l' : Act} (h : l.Alike l') : l.backwardAsync (α := α) = l'.backwardAsync := by
  obtain ⟨x, y, kind⟩ := l
  obtain ⟨x', y', kind'⟩ := l'
  obtain ⟨hx, h2, h3⟩ := h
  simp only at hx h2 h3
  subst h2 h3
  unfold Act.backwardAsync
  cases kind
  · have := hx.when (α := α) (fun g => reluBackwardAsync x.value y.grad g)
    simp only [hx.1] at this ⊢
    rw [this]
  · have := hx.when (α := α) (fun g => geluBackwardAsync x.value y.grad g)
    simp only [hx.1] at this ⊢
    rw [this]
  · have := hx.when (α := α) (fun g => gelutanhBackwardAsync x.value y.grad g)
    simp only [hx.1] at this ⊢
    rw [this]

theorem Linear.Alike.forward {l l' : Linear} (h : l.Alike l') : l.forwardAsync (α := α) = l'.forwardAsync := by
  obtain ⟨⟨hx, -⟩, ⟨hw, -⟩, hb, hr⟩ := h
  obtain ⟨side, transX, x, y, w, ndim, b, redux⟩ := l
  obtain ⟨side', transX', x', y', w', ndim', b', redux'⟩ := l'
  cases hr
  simp only at hx hw hb
  unfold Linear.forwardAsync
  simp only [hx, hw]
  cases b <;> cases b'
  · rfl
  · exact hb.elim
  · exact hb.elim
  · simp only [hb.1]

theorem Linear.Alike.backward {l l' : Linear} (h : l.Alike l') : l.backwardAsync (α := α) = l'.backwardAsync := by
  obtain ⟨hx, hw, hb, hr⟩ := h
  obtain ⟨side, transX, x, y, w, ndim, b, redux⟩ := l
  obtain ⟨side', transX', x', y', w', ndim', b', redux'⟩ := l'
  cases hr
  simp only at hx hw hb
  have e1 := hw.when (α := α) (fun g => Linear.backwardW ⟨side, transX, x, y, ⟨w.value, g, true⟩, ndim, b, redux⟩)
  have e2 := hx.when (α := α) (fun g => Linear.backwardX ⟨side, transX, ⟨x.value, g, true⟩, y, w, ndim, b, redux⟩)
  have e3 : Linear.backwardB (α := α) ⟨side, transX, x, y, w, ndim, b, redux⟩ = Linear.backwardB ⟨side, transX, x', y, w', ndim, b', redux⟩ := by
    cases b <;> cases b'
    · rfl
    · exact hb.elim
    · exact hb.elim
    · rename_i b b'
      cases side
      · exact Moments.Alike.when (m := b) (m' := b') hb (fun g => sumFiberAsync 1 y.grad 1 g ((y.value.ndim : Int) - 1) 0 redux)
      · exact Moments.Alike.when (m := b) (m' := b') hb (fun g => sumFiberAsync 1 y.grad 1 g 0 0 redux)
  unfold Linear.backwardAsync
  rw [e3]
  simp only [Linear.backwardW, Linear.backwardX] at e1 e2 ⊢
  rw [hx.1] at e1 ⊢
  rw [hw.1] at e2 ⊢
  rw [e1, e2]

theorem attnProject_alike (invalidate redux : Bool) {w w' x x' : Moments} (pT p : Moments) {b b' : Option Moments} (hw : w.Alike w') (hx : x.Alike x') (hb : BiasAlike b b') :
    attnProject (α := α) invalidate redux w x pT p b = attnProject invalidate redux w' x' pT p b' := by
  unfold attnProject
  rw [hw.1, hx.1]
  cases b <;> cases b'
  · rfl
  · exact hb.elim
  · exact hb.elim
  · simp only [hb.1]

theorem attnProjectBackward_alike (invalidate redux : Bool) {w w' x x' : Moments} (pT p : Moments) {b b' : Option Moments} (hw : w.Alike w') (hx : x.Alike x')
    (hb : BiasAlike b b') : attnProjectBackward (α := α) invalidate redux w x pT p b = attnProjectBackward invalidate redux w' x' pT p b' := by
  unfold attnProjectBackward
  rw [hw.when (fun g => gemmAsync 1 .noTrans pT.grad .trans x.value 1 g 2 0 redux), hx.when (fun g => gemmAsync 1 .trans w.value .noTrans pT.grad 1 g 2 0 redux), hw.1, hx.1]
  cases b <;> cases b'
  · rfl
  · exact hb.elim
  · exact hb.elim
  · rename_i b b'
    simp only
    rw [Moments.Alike.when (m := b) (m' := b') hb (fun g => sumFiberAsync 1 p.grad 1 g 0 1 redux)]

theorem Attention.Alike.combine {l l' : Attention α} (h : l.Alike l') (invalidate : Bool) : l.combine invalidate = l'.combine invalidate := by
  have hr := h.rest
  have hw := h.w
  have hb := h.biasOut
  rw [hr]
  unfold Attention.combine
  simp only
  rw [hw.1]
  cases e : l.biasOut <;> cases e' : l'.biasOut <;> rw [e, e'] at hb
  · exact hb.elim
  · exact hb.elim
  · simp only [hb.1]

theorem Attention.Alike.combineBackward {l l' : Attention α} (h : l.Alike l') (invalidate : Bool) : l.combineBackward invalidate = l'.combineBackward invalidate := by
  have hr := h.rest
  have hw := h.w
  have hb := h.biasOut
  rw [hr]
  unfold Attention.combineBackward
  simp only
  rw [hw.when (fun g => gemmAsync 1 .noTrans l.y.grad .trans l.bT.value 1 g 2 0 l.redux), hw.1]
  cases e : l.biasOut <;> cases e' : l'.biasOut <;> rw [e, e'] at hb
  · exact hb.elim
  · exact hb.elim
  · rename_i b b'
    simp only
    rw [Moments.Alike.when (m := b) (m' := b') hb (fun g => sumFiberAsync 1 l.y.grad 1 g 0 0 l.redux)]

theorem Attention.Alike.forward {l l' : Attention α} (h : l.Alike l') (asIdx : α → Int) (invalidate : Bool) : l.forwardAsync asIdx invalidate = l'.forwardAsync asIdx invalidate := by
  unfold Attention.forwardAsync
  have hr := h.rest
  rw [h.combine, attnProject_alike invalidate l.redux l.qT l.q h.wq h.xq h.biasQ, attnProject_alike invalidate l.redux l.kT l.k h.wk h.xk h.biasK,
    attnProject_alike invalidate l.redux l.vT l.v h.wv h.xv h.biasV]
  have e : l.heads asIdx invalidate = l'.heads asIdx invalidate := by rw [hr]; rfl
  rw [e]
  have e1 : l'.redux = l.redux := by rw [hr]
  have e2 : l'.qT = l.qT := by rw [hr]
  have e3 : l'.q = l.q := by rw [hr]
  have e4 : l'.kT = l.kT := by rw [hr]
  have e5 : l'.k = l.k := by rw [hr]
  have e6 : l'.vT = l.vT := by rw [hr]
  have e7 : l'.v = l.v := by rw [hr]
  rw [e1, e2, e3, e4, e5, e6, e7]

theorem Attention.Alike.flashForward {l l' : Attention α} (h : l.Alike l') (asIdx : α → Int) (invalidate : Bool) :
    l.flashForwardAsync asIdx invalidate = l'.flashForwardAsync asIdx invalidate := by
  unfold Attention.flashForwardAsync
  have hr := h.rest
  rw [h.combine, attnProject_alike invalidate l.redux l.qT l.q h.wq h.xq h.biasQ, attnProject_alike invalidate l.redux l.kT l.k h.wk h.xk h.biasK,
    attnProject_alike invalidate l.redux l.vT l.v h.wv h.xv h.biasV]
  have e : l.flashHeads asIdx invalidate = l'.flashHeads asIdx invalidate := by rw [hr]; rfl
  rw [e]
  have e1 : l'.redux = l.redux := by rw [hr]
  have e2 : l'.qT = l.qT := by rw [hr]
  have e3 : l'.q = l.q := by rw [hr]
  have e4 : l'.kT = l.kT := by rw [hr]
  have e5 : l'.k = l.k := by rw [hr]
  have e6 : l'.vT = l.vT := by rw [hr]
  have e7 : l'.v = l.v := by rw [hr]
  rw [e1, e2, e3, e4, e5, e6, e7]

theorem Attention.Alike.backward {l l' : Attention α} (h : l.Alike l') (asIdx : α → Int) (invalidate : Bool) :
    l.backwardAsync asIdx invalidate = l'.backwardAsync asIdx invalidate := by
  unfold Attention.backwardAsync
  have hr := h.rest
  rw [h.combineBackward, attnProjectBackward_alike invalidate l.redux l.qT l.q h.wq h.xq h.biasQ, attnProjectBackward_alike invalidate l.redux l.kT l.k h.wk h.xk h.biasK,
    attnProjectBackward_alike invalidate l.redux l.vT l.v h.wv h.xv h.biasV]
  have e : l.headsBackward asIdx invalidate = l'.headsBackward asIdx invalidate := by rw [hr]; rfl
  rw [e]
  have e1 : l'.redux = l.redux := by rw [hr]
  have e2 : l'.qT = l.qT := by rw [hr]
  have e3 : l'.q = l.q := by rw [hr]
  have e4 : l'.kT = l.kT := by rw [hr]
  have e5 : l'.k = l.k := by rw [hr]
  have e6 : l'.vT = l.vT := by rw [hr]
  have e7 : l'.v = l.v := by rw [hr]
  rw [e1, e2, e3, e4, e5, e6, e7]

theorem Attention.Alike.flashBackward {l l' : Attention α} (h : l.Alike l') (asIdx : α → Int) (invalidate : Bool) :
    l.flashBackwardAsync asIdx invalidate = l'.flashBackwardAsync asIdx invalidate := by
  unfold Attention.flashBackwardAsync
  have hr := h.rest
  rw [h.combineBackward, attnProjectBackward_alike invalidate l.redux l.qT l.q h.wq h.xq h.biasQ, attnProjectBackward_alike invalidate l.redux l.kT l.k h.wk h.xk h.biasK,
    attnProjectBackward_alike invalidate l.redux l.vT l.v h.wv h.xv h.biasV]
  have e : l.flashHeadsBackward asIdx invalidate = l'.flashHeadsBackward asIdx invalidate := by rw [hr]; rfl
  rw [e]
  have e1 : l'.redux = l.redux := by rw [hr]
  have e2 : l'.qT = l.qT := by rw [hr]
  have e3 : l'.q = l.q := by rw [hr]
  have e4 : l'.kT = l.kT := by rw [hr]
  have e5 : l'.k = l.k := by rw [hr]
  have e6 : l'.vT = l.vT := by rw [hr]
  have e7 : l'.v = l.v := by rw [hr]
  rw [e1, e2, e3, e4, e5, e6, e7]

theorem PyLayer.Alike.forward {l l' : PyLayer α} (h : l.Alike l') (asIdx : α → Int) (invalidate : Bool) : l.forwardAsync asIdx invalidate = l'.forwardAsync asIdx invalidate := by
  cases h with
  | act h => exact h.forward
  | linear h => exact h.forward
  | attention h => exact h.forward asIdx invalidate
  | flash h => exact h.flashForward asIdx false
  | same => rfl

theorem PyLayer.Alike.backward {l l' : PyLayer α} (h : l.Alike l') (asIdx : α → Int) (invalidate : Bool) : l.backwardAsync asIdx invalidate = l'.backwardAsync asIdx invalidate := by
  cases h with
  | act h => exact h.backward
  | linear h => exact h.backward
  | attention h => exact h.backward asIdx invalidate
  | flash h => exact h.flashBackward asIdx false
  | same => rfl

theorem PyEntry.Alike.clear {e e' : PyEntry} (h : e.Alike e') : e.clearGrad (α := α) = e'.clearGrad := by
  cases h with
  | moments h => exact h.when (fun g => clearAsync g)
  | list => rfl

theorem Forall₂.map_eq {β γ δ : Type} {R : β → γ → Prop} {f : β → δ} {g : γ → δ} (h : ∀ a b, R a b → f a = g b) {l : List β} {l' : List γ} (H : List.Forall₂ R l l') :
    l.map f = l'.map g := by
  induction H with
  | nil => rfl
  | cons h1 _ ih => rw [List.map_cons, List.map_cons, h _ _ h1, ih]

theorem zipIdx_map_eq {β γ : Type} {R : β → β → Prop} {f : β → Nat → γ} (h : ∀ a b i, R a b → f a i = f b i) {l l' : List β} (H : List.Forall₂ R l l') (n : Nat) :
    (l.zipIdx n).map (fun p => f p.1 p.2) = (l'.zipIdx n).map (fun p => f p.1 p.2) := by
  induction H generalizing n with
  | nil => rfl
  | cons h1 _ ih => rw [List.zipIdx_cons, List.zipIdx_cons, List.map_cons, List.map_cons, h _ _ _ h1, ih]

end NNTile
