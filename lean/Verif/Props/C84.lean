import Verif.Model.BlockingLayer
import Verif.Props.C33
import Verif.Props.C83
/-!
# C84: the blocking methods `forward` and `backward` of a layer
-/
namespace NNTile
variable {α : Type}

/-- What a blocking method of a layer has to do: return normally, after all tasks of the asynchronous method were submitted and waited for. -/
def IsBlocking (method : List (RtEvent α) × M Unit) (async : M (List (Task1 α))) : Prop :=
  ∃ ts, async = .ok ts ∧ method.1 = ts.map (fun t => RtEvent.submit t.toTask) ++ [.waitAll] ∧ method.2 = .ok ()

/-- **What remains of `forward`.** All tasks of `forward_async` are submitted; when the program itself waits for all tasks after it has caught the exception, the results of the forward pass are there, whatever
the workers do. -/
theorem C84_forward_partial {fwd bwd : M (List (Task1 α))} {s : Store α} {ids : List Nat} {P : Store α → Prop} (h : Runs fwd s ids P) {es : List (RtEvent α)}
    (he : mainOf es = (BaseLayer.forward fwd bwd).1) {o : M (Rt α)} (hr : Rt.Run (.init s) (es ++ [.waitAll]) o) :
    ∃ r, o = .ok r ∧ r.pending = [] ∧ OnlyChanged ids s r.store ∧ P r.store := by
  obtain ⟨ts, s', e1, e2, e3, e4⟩ := h
  subst e1
  obtain ⟨r, h1, h2, h3⟩ := C83_blocking (ops := []) (last := ts.map Task1.toTask) e2 (es := es) (by rw [he]; rfl) hr
  exact ⟨r, h1, h3, h2 ▸ e3, h2 ▸ e4⟩

/-- **Refuted: `forward`.** For every layer the method raises an exception; it does not wait. -/
theorem C84_forward_refuted {fwd bwd : M (List (Task1 α))} : (∃ e, (BaseLayer.forward fwd bwd).2 = .error e) ∧ .waitAll ∉ (BaseLayer.forward fwd bwd).1 ∧ ¬ IsBlocking (BaseLayer.forward fwd bwd) fwd := by
  have h : ∃ e, (BaseLayer.forward fwd bwd).2 = .error e := by
    cases fwd with
    | error e => exact ⟨e, rfl⟩
    | ok ts => exact ⟨_, rfl⟩
  refine ⟨h, ?_, ?_⟩
  · cases fwd with
    | error e => simp [BaseLayer.forward, callAndWait]
    | ok ts => simp [BaseLayer.forward, callAndWait, lookupName, baseLayerNames, asyncOp]
  · rintro ⟨ts, -, -, h2⟩
    obtain ⟨e, h⟩ := h
    rw [h] at h2
    cases h2

/-- **Refuted: `backward`.** For every layer the method raises an exception, and the tasks which it submits are those of the forward pass: whatever the backward pass is, it makes no difference. -/
theorem C84_backward_refuted {fwd bwd : M (List (Task1 α))} : (∃ e, (BaseLayer.backward fwd bwd).2 = .error e) ∧ (∀ bwd', BaseLayer.backward fwd bwd = BaseLayer.backward fwd bwd') ∧
    (∀ ts, fwd = .ok ts → (BaseLayer.backward fwd bwd).1 = ts.map fun t => RtEvent.submit t.toTask) ∧ ¬ IsBlocking (BaseLayer.backward fwd bwd) bwd := by
  have h : ∃ e, (BaseLayer.backward fwd bwd).2 = .error e := C84_forward_refuted (bwd := bwd).1
  refine ⟨h, fun _ => rfl, ?_, ?_⟩
  · rintro ts rfl
    simp [BaseLayer.backward, callAndWait, lookupName, baseLayerNames, asyncOp]
  · rintro ⟨ts, -, -, h2⟩
    obtain ⟨e, h⟩ := h
    rw [h] at h2
    cases h2

/-- **Refuted: the gradients after `backward`.** For a linear layer, the gradient of the weights after `backward` and a wait is what it was, although the backward pass adds the gradient to it. -/
theorem C84_linear_refuted (x w dy w0 b : List Nat → ℝ) : ∃ s : Store ℝ, linearExample.w.grad.Holds s w0 ∧
    ∀ (es : List (RtEvent ℝ)) (r : Rt ℝ), mainOf es = (BaseLayer.backward linearExample.forwardAsync linearExample.backwardAsync).1 → Rt.Run (.init s) (es ++ [.waitAll]) (.ok r) →
      linearExample.w.grad.Holds r.store w0 := by
  have h := storeOf_spec [(linearExample.x.value, x), (linearExample.x.grad, fun _ => 0), (linearExample.y.value, fun _ => 0), (linearExample.y.grad, dy),
    (linearExample.w.value, w), (linearExample.w.grad, w0), (⟨6, [3], [2]⟩, b), (⟨7, [3], [2]⟩, fun _ => 0)]
    (by simp [linearExample, Tensor.WF]) (by simp [linearExample])
  simp only [List.forall_mem_cons, List.not_mem_nil, IsEmpty.forall_iff, implies_true, and_true] at h
  obtain ⟨hx, hxg, hy, hyg, hw, hwg, hb, hbg⟩ := h
  refine ⟨_, hwg.2, fun es r he hr => ?_⟩
  have hf := C33_linear_forward linearExample_fits hx.1 hw.1 hy.1 (by rintro m ⟨⟩; exact ⟨hb.1, by decide⟩) (by decide) (by decide) x w b hx.2 hw.2
    (by rintro m ⟨⟩; exact hb.2)
  obtain ⟨r', e, -, hc, -⟩ := C84_forward_partial (bwd := linearExample.backwardAsync) hf.runs he hr
  cases e
  exact hc.holds hwg.2 (by decide)

/-- The hypotheses are met: after `backward` of the linear layer was called, the workers can execute the tasks, and the wait of the program returns. -/
example (x w b : List Nat → ℝ) : ∃ (s : Store ℝ) (es : List (RtEvent ℝ)) (r : Rt ℝ),
    mainOf es = (BaseLayer.backward linearExample.forwardAsync linearExample.backwardAsync).1 ∧ Rt.Run (.init s) (es ++ [.waitAll]) (.ok r) ∧
      linearExample.y.value.Holds r.store (linearOut .L .trans 1 [7] x w b) := by
  have h := storeOf_spec [(linearExample.x.value, x), (linearExample.y.value, fun _ => 0), (linearExample.w.value, w), (⟨6, [3], [2]⟩, b)]
    (by simp [linearExample, Tensor.WF]) (by simp [linearExample])
  simp only [List.forall_mem_cons, List.not_mem_nil, IsEmpty.forall_iff, implies_true, and_true] at h
  obtain ⟨hx, hy, hw, hb⟩ := h
  obtain ⟨ts, s', e1, e2, e3, -⟩ := C33_linear_forward linearExample_fits hx.1 hw.1 hy.1 (by rintro m ⟨⟩; exact ⟨hb.1, by decide⟩) (by decide) (by decide) x w b hx.2 hw.2
    (by rintro m ⟨⟩; exact hb.2)
  have e3 : linearExample.y.value.Holds s' (linearOut .L .trans 1 [7] x w b) := e3
  generalize storeOf [(linearExample.x.value, x), (linearExample.y.value, fun _ => 0), (linearExample.w.value, w), (⟨6, [3], [2]⟩, b)] = s0 at e2
  have r1 := Rt.Run.submits (.init s0) (ts.map Task1.toTask)
  have hI : Rt.Inv { Rt.init s0 with pending := (Rt.init s0).pending ++ ts.map Task1.toTask } s' := ⟨e2, by simp [Rt.init]⟩
  have r2 := (r1.append_ok (hI.drain rfl)).append_ok (.cons (.waitAll rfl) (.nil _))
  refine ⟨s0, _, _, ?_, r2, e3⟩
  rw [mainOf, List.filter_append, List.filter_eq_self.2 (fun e he => ?_), List.filter_eq_nil_iff.2 (fun e he => ?_), List.append_nil]
  · rw [e1]
    rfl
  · rw [List.eq_of_mem_replicate he]
    simp [RtEvent.isWorker]
  · simp only [asyncOp, List.mem_map] at he
    obtain ⟨t, -, rfl⟩ := he
    rfl

end NNTile
