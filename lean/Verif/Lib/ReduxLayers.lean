import Verif.Lib.ReduxFlash
import Verif.Spec.ReduxNet
/-! Layers submit only tasks which can be executed with replicas. -/
namespace NNTile
variable {N : Handle → Nat} {kd : Handle → Option ReduxKind}
attribute [local irreducible] SzAt AllT Task1.PlainTo Task1.Redc Tgt

theorem AllT.whenT {α : Type} {P : Task1 α → Prop} {c : Bool} {a : M (List (Task1 α))} (h : c = true → AllT P a) : AllT P (whenAsync c a) := by
  cases c
  · exact AllT.nil
  · exact h rfl

theorem AllT.cons {α : Type} {P : Task1 α → Prop} {a : M (List (Task1 α))} {l : List (M (List (Task1 α)))} (h : AllT P a) (h' : AllT P (seqAsync l)) : AllT P (seqAsync (a :: l)) := AllT.append h h'

theorem grad_mem {m : Moments} (h : m.gradRequired = true) : (m.grad, ReduxKind.add) ∈ m.reductionGrad := by simp [Moments.reductionGrad, h]

theorem AllT.inv {T : Tensor} {c : Bool} (hn : NoMse kd T) : AllT (Task1.Redc N kd) (invalidateAsync c T : M (List (Task1 ℝ))) := (invalidateAsync_plain c T).redc hn

section linear
variable {l : Linear} (ht : ∀ p ∈ l.reductions, Tgt N kd p.2 p.1) (hw : ∀ T ∈ (PyLayer.linear l : PyLayer ℝ).tensors, T.WF) (hn : ∀ T ∈ (PyLayer.linear l : PyLayer ℝ).tensors, NoMse kd T)
include ht
theorem Linear.tgt_y : Tgt N kd .add l.y.value := ht (l.y.value, .add) (by simp [Linear.reductions])
theorem Linear.tgt_x (h : l.x.gradRequired = true) : Tgt N kd .add l.x.grad := ht (l.x.grad, .add) (by simp [Linear.reductions, grad_mem h])
theorem Linear.tgt_w (h : l.w.gradRequired = true) : Tgt N kd .add l.w.grad := ht (l.w.grad, .add) (by simp [Linear.reductions, grad_mem h])
theorem Linear.tgt_b {b : Moments} (hb : l.b = some b) (h : b.gradRequired = true) : Tgt N kd .add b.grad := ht (b.grad, .add) (by simp [Linear.reductions, hb, grad_mem h])
include hn
theorem Linear.forward_redc : AllT (Task1.Redc N kd) (l.forwardAsync : M (List (Task1 ℝ))) := by
  have hy : NoMse kd l.y.value := hn _ (by simp [PyLayer.tensors, PyLayer.output])
  unfold Linear.forwardAsync
  cases l.side <;> refine AllT.cons (gemmAsync_redc (Linear.tgt_y ht)) (AllT.cons ?_ AllT.nil)
  all_goals
    cases l.b with
    | none => exact AllT.nil
    | some b => exact (addFiberAsync_plain ..).redc hy
omit hn
include hw
theorem Linear.backward_redc : AllT (Task1.Redc N kd) (l.backwardAsync : M (List (Task1 ℝ))) := by
  have hy : l.y.grad.WF := hw _ (by simp [PyLayer.tensors, PyLayer.output])
  unfold Linear.backwardAsync
  refine AllT.cons (AllT.whenT fun h => ?_) (AllT.cons ?_ (AllT.cons (AllT.whenT fun h => ?_) AllT.nil))
  · unfold Linear.backwardW
    cases l.side <;> cases l.transX <;> exact gemmAsync_redc (Linear.tgt_w ht h)
  · unfold Linear.backwardB
    cases hb : l.b with
    | none => exact AllT.nil
    | some b =>
      refine AllT.whenT fun h => ?_
      cases l.side <;> exact sumFiberAsync_redc hy (Linear.tgt_b ht hb h)
  · unfold Linear.backwardX
    cases l.side <;> cases l.transX <;> exact gemmAsync_redc (Linear.tgt_x ht h)
end linear

section norm
variable {l : LayerNorm ℝ} (ht : ∀ p ∈ l.reductions, Tgt N kd p.2 p.1) (hw : ∀ T ∈ (PyLayer.layerNorm l : PyLayer ℝ).tensors, T.WF) (hn : ∀ T ∈ (PyLayer.layerNorm l : PyLayer ℝ).tensors, NoMse kd T)
include ht hw hn
theorem LayerNorm.forward_redc : AllT (Task1.Redc N kd) l.forwardAsync := by
  have t1 : Tgt N kd .add l.mean := ht (l.mean, .add) (by simp [LayerNorm.reductions])
  have t2 : Tgt N kd .hypot l.invStddev := ht (l.invStddev, .hypot) (by simp [LayerNorm.reductions])
  have w1 : l.x.value.WF := hw _ (by simp [PyLayer.tensors, PyLayer.inputs])
  have w2 : l.tmpYValue.WF := hw _ (by simp [PyLayer.tensors, PyLayer.temporaries])
  have n1 : NoMse kd l.tmpYValue := hn _ (by simp [PyLayer.tensors, PyLayer.temporaries])
  have n2 : NoMse kd l.invStddev := hn _ (by simp [PyLayer.tensors, PyLayer.temporaries])
  have n3 : NoMse kd l.y.value := hn _ (by simp [PyLayer.tensors, PyLayer.output])
  unfold LayerNorm.forwardAsync
  exact AllT.cons (sumSliceAsync_redc w1 t1) (AllT.cons ((addSlice3Async_plain ..).redc n1) (AllT.cons (normSliceAsync_redc w2 t2) (AllT.cons ((hypotScalarInverseAsync_plain ..).redc n2)
    (AllT.cons ((prodSliceAsync_plain ..).redc n1) (AllT.cons ((prodFiber3Async_plain ..).redc n3) (AllT.cons ((addFiberAsync_plain ..).redc n3) AllT.nil))))))
theorem LayerNorm.backward_redc (c : Bool) : AllT (Task1.Redc N kd) (l.backwardAsync c) := by
  have t1 : Tgt N kd .add l.mean := ht (l.mean, .add) (by simp [LayerNorm.reductions])
  have t2 : Tgt N kd .add l.gamma.grad := ht (l.gamma.grad, .add) (by simp [LayerNorm.reductions])
  have t3 : Tgt N kd .add l.beta.grad := ht (l.beta.grad, .add) (by simp [LayerNorm.reductions])
  have w1 : l.y.grad.WF := hw _ (by simp [PyLayer.tensors, PyLayer.output])
  have w2 : l.tmpYGrad.WF := hw _ (by simp [PyLayer.tensors, PyLayer.temporaries])
  have n1 : NoMse kd l.tmpYValue := hn _ (by simp [PyLayer.tensors, PyLayer.temporaries])
  have n2 : NoMse kd l.invStddev := hn _ (by simp [PyLayer.tensors, PyLayer.temporaries])
  have n3 : NoMse kd l.tmpYGrad := hn _ (by simp [PyLayer.tensors, PyLayer.temporaries])
  have n4 : NoMse kd l.mean := hn _ (by simp [PyLayer.tensors, PyLayer.temporaries])
  have n5 : NoMse kd l.x.grad := hn _ (by simp [PyLayer.tensors, PyLayer.inputs])
  unfold LayerNorm.backwardAsync
  exact AllT.cons (sumFiberAsync_redc w1 t3) (AllT.cons (sumprodFiberAsync_redc w1 t2) (AllT.cons ((prodFiber3Async_plain ..).redc n3) (AllT.cons (sumprodSliceAsync_redc w2 t1)
    (AllT.cons ((prodSliceAsync_plain ..).redc n1) (AllT.cons ((axpyScalarAsync_plain ..).redc n1) (AllT.cons (sumSliceAsync_redc w2 t1) (AllT.cons (AllT.inv n3)
    (AllT.cons ((addSliceAsync_plain ..).redc n1) (AllT.cons (AllT.inv n4) (AllT.cons ((prodSliceAsync_plain ..).redc n1) (AllT.cons (AllT.inv n2)
    (AllT.cons ((axpyScalarAsync_plain ..).redc n5) (AllT.cons (AllT.inv n1) AllT.nil)))))))))))))
end norm

section attention
variable {c redux : Bool} {asIdx : ℝ → Int}

theorem attnProject_redc {w x pT p : Moments} {b : Option Moments} (t1 : Tgt N kd .add pT.value) (n1 : NoMse kd pT.value) (n2 : NoMse kd p.value) {a : M (List (Task1 ℝ))}
    (ha : a ∈ attnProject c redux w x pT p b) : AllT (Task1.Redc N kd) a := by
  simp only [attnProject, List.mem_cons, List.not_mem_nil, or_false] at ha
  rcases ha with rfl | rfl | rfl | rfl
  · exact gemmAsync_redc t1
  · exact (transposeAsync_plain ..).redc n2
  · exact AllT.inv n1
  · cases b with
    | none => exact AllT.nil
    | some b => exact (addFiberAsync_plain ..).redc n2

theorem attnProjectBackward_redc {w x pT p : Moments} {b : Option Moments} (t1 : x.gradRequired = true → Tgt N kd .add x.grad) (t2 : w.gradRequired = true → Tgt N kd .add w.grad)
    (t3 : ∀ b', b = some b' → b'.gradRequired = true → Tgt N kd .add b'.grad) (w1 : p.grad.WF) (n1 : NoMse kd pT.grad) (n2 : NoMse kd p.grad) {a : M (List (Task1 ℝ))}
    (ha : a ∈ attnProjectBackward c redux w x pT p b) : AllT (Task1.Redc N kd) a := by
  simp only [attnProjectBackward, List.mem_cons, List.not_mem_nil, or_false] at ha
  rcases ha with rfl | rfl | rfl | rfl | rfl | rfl
  · cases b with
    | none => exact AllT.nil
    | some b => exact AllT.whenT fun h => sumFiberAsync_redc w1 (t3 b rfl h)
  · exact AllT.when ((transposeAsync_plain ..).redc n1)
  · exact AllT.inv n2
  · exact AllT.whenT fun h => gemmAsync_redc (t1 h)
  · exact AllT.whenT fun h => gemmAsync_redc (t2 h)
  · exact AllT.inv n1

variable {l : Attention ℝ} (ht : ∀ p ∈ l.reductions, Tgt N kd p.2 p.1) (hw : ∀ T ∈ (PyLayer.attention l : PyLayer ℝ).tensors, T.WF) (hn : ∀ T ∈ (PyLayer.attention l : PyLayer ℝ).tensors, NoMse kd T)
include ht hw hn

theorem Attention.forward_redc : AllT (Task1.Redc N kd) (l.forwardAsync asIdx c) := by
  unfold Attention.forwardAsync
  refine AllT.seq fun a ha => ?_
  simp only [List.mem_append] at ha
  rcases ha with (((ha | ha) | ha) | ha) | ha
  · exact attnProject_redc (ht (l.qT.value, .add) (by unfold Attention.reductions; simp only [List.mem_append, List.mem_cons, eq_self, true_or, or_true])) (hn _ (by simp [PyLayer.tensors, PyLayer.temporaries])) (hn _ (by simp [PyLayer.tensors, PyLayer.temporaries])) ha
  · exact attnProject_redc (ht (l.kT.value, .add) (by unfold Attention.reductions; simp only [List.mem_append, List.mem_cons, eq_self, true_or, or_true])) (hn _ (by simp [PyLayer.tensors, PyLayer.temporaries])) (hn _ (by simp [PyLayer.tensors, PyLayer.temporaries])) ha
  · exact attnProject_redc (ht (l.vT.value, .add) (by unfold Attention.reductions; simp only [List.mem_append, List.mem_cons, eq_self, true_or, or_true])) (hn _ (by simp [PyLayer.tensors, PyLayer.temporaries])) (hn _ (by simp [PyLayer.tensors, PyLayer.temporaries])) ha
  · have wa : l.a.value.WF := hw _ (by simp [PyLayer.tensors, PyLayer.temporaries])
    have na : NoMse kd l.a.value := hn _ (by simp [PyLayer.tensors, PyLayer.temporaries])
    simp only [Attention.heads, List.mem_cons, List.not_mem_nil, or_false] at ha
    rcases ha with rfl | rfl | rfl | rfl | rfl | rfl | rfl
    · exact gemmAsync_redc (ht (l.a.value, .add) (by unfold Attention.reductions; simp only [List.mem_append, List.mem_cons, eq_self, true_or, or_true]))
    · exact clearAsync_mse _
    · cases l.mask with
      | none => exact AllT.nil
      | some m => exact (maskScalarAsync_plain ..).redc na
    · exact maxsumexpAsync_redc wa (ht (l.aMaxsumexp, .maxsumexp) (by unfold Attention.reductions; simp only [List.mem_append, List.mem_cons, eq_self, true_or, or_true]))
    · exact (softmaxInplaceAsync_plain ..).redc na
    · exact invalidateAsync_mse _ _
    · exact gemmAsync_redc (ht (l.b.value, .add) (by unfold Attention.reductions; simp only [List.mem_append, List.mem_cons, eq_self, true_or, or_true]))
  · have ny : NoMse kd l.y.value := hn _ (by simp [PyLayer.tensors, PyLayer.output])
    simp only [Attention.combine, List.mem_cons, List.not_mem_nil, or_false] at ha
    rcases ha with rfl | rfl | rfl | rfl
    · exact (transposeAsync_plain ..).redc (hn _ (by simp [PyLayer.tensors, PyLayer.temporaries]))
    · exact gemmAsync_redc (ht (l.y.value, .add) (by unfold Attention.reductions; simp only [List.mem_append, List.mem_cons, eq_self, true_or, or_true]))
    · exact AllT.inv (hn _ (by simp [PyLayer.tensors, PyLayer.temporaries]))
    · cases l.biasOut with
      | none => exact AllT.nil
      | some b => exact (addFiberAsync_plain ..).redc ny

theorem Attention.backward_redc : AllT (Task1.Redc N kd) (l.backwardAsync asIdx c) := by
  have wy : l.y.grad.WF := hw _ (by simp [PyLayer.tensors, PyLayer.output])
  have wa : l.a.value.WF := hw _ (by simp [PyLayer.tensors, PyLayer.temporaries])
  have nv : ∀ m ∈ [l.qT, l.q, l.kT, l.k, l.vT, l.v, l.a, l.b, l.bT], NoMse kd m.value ∧ NoMse kd m.grad := by
    intro m hm
    refine ⟨hn _ ?_, hn _ ?_⟩ <;>
    · refine List.mem_append_right _ (List.mem_cons_of_mem _ (List.mem_flatMap.2 ⟨m, hm, by simp⟩))
  have rg : ∀ {m : Moments}, m ∈ [l.xq, l.xk, l.xv, l.wq, l.wk, l.wv, l.w, l.q, l.k, l.v, l.a, l.bT] → m.gradRequired = true → Tgt N kd .add m.grad := by
    intro m hm h
    refine ht (m.grad, .add) ?_
    simp only [List.mem_cons, List.not_mem_nil, or_false] at hm
    have := grad_mem h
    rcases hm with rfl | rfl | rfl | rfl | rfl | rfl | rfl | rfl | rfl | rfl | rfl | rfl <;> (unfold Attention.reductions; simp only [List.mem_append, this, true_or, or_true])
  have rb : ∀ {m : Moments}, some m ∈ [l.biasQ, l.biasK, l.biasV, l.biasOut] → m.gradRequired = true → Tgt N kd .add m.grad := by
    intro m hm h
    refine ht (m.grad, .add) ?_
    have : (m.grad, ReduxKind.add) ∈ ([l.biasQ, l.biasK, l.biasV, l.biasOut].filterMap id).flatMap Moments.reductionGrad :=
      List.mem_flatMap.2 ⟨m, List.mem_filterMap.2 ⟨some m, hm, rfl⟩, grad_mem h⟩
    unfold Attention.reductions
    simp only [List.mem_append, this, true_or]
  unfold Attention.backwardAsync
  refine AllT.seq fun a ha => ?_
  simp only [List.mem_append] at ha
  rcases ha with (((ha | ha) | ha) | ha) | ha
  · simp only [Attention.combineBackward, List.mem_cons, List.not_mem_nil, or_false] at ha
    rcases ha with rfl | rfl | rfl | rfl | rfl | rfl
    · cases hb : l.biasOut with
      | none => exact AllT.nil
      | some b => exact AllT.whenT fun h => sumFiberAsync_redc wy (rb (by simp [hb]) h)
    · exact AllT.whenT fun h => gemmAsync_redc (rg (by simp) h)
    · exact AllT.inv (nv l.bT (by simp)).1
    · exact AllT.whenT fun h => gemmAsync_redc (rg (by simp) h)
    · exact AllT.when ((transposeAsync_plain ..).redc (nv l.b (by simp)).2)
    · exact AllT.inv (nv l.bT (by simp)).2
  · simp only [Attention.headsBackward, List.mem_cons, List.not_mem_nil, or_false] at ha
    rcases ha with rfl | rfl | rfl | rfl | rfl | rfl | rfl | rfl | rfl | rfl | rfl | rfl
    · exact AllT.whenT fun h => gemmAsync_redc (rg (by simp) h)
    · exact AllT.inv (nv l.v (by simp)).1
    · exact AllT.whenT fun h => gemmAsync_redc (rg (by simp) h)
    · exact AllT.inv (nv l.b (by simp)).2
    · have ns : NoMse kd l.aSumprodSlice := hn _ (by simp [PyLayer.tensors, PyLayer.temporaries])
      exact AllT.when (AllT.cons (sumprodSliceAsync_redc wa (ht (l.aSumprodSlice, .add) (by unfold Attention.reductions; simp only [List.mem_append, List.mem_cons, eq_self, true_or, or_true]))) (AllT.cons ((addSliceAsync_plain ..).redc (nv l.a (by simp)).2)
        (AllT.cons (AllT.inv ns) (AllT.cons ((prodAsync_plain ..).redc (nv l.a (by simp)).2) AllT.nil))))
    · exact AllT.inv (nv l.a (by simp)).1
    · cases l.mask with
      | none => exact AllT.nil
      | some m => exact (maskScalarAsync_plain ..).redc (nv l.a (by simp)).2
    · exact AllT.whenT fun h => gemmAsync_redc (rg (by simp) h)
    · exact AllT.inv (nv l.q (by simp)).1
    · exact AllT.whenT fun h => gemmAsync_redc (rg (by simp) h)
    · exact AllT.inv (nv l.k (by simp)).1
    · exact AllT.inv (nv l.a (by simp)).2
  · exact attnProjectBackward_redc (rg (by simp)) (rg (by simp)) (fun b hb => rb (by simp [hb])) (hw _ (by simp [PyLayer.tensors, PyLayer.temporaries])) (nv l.vT (by simp)).2 (nv l.v (by simp)).2 ha
  · exact attnProjectBackward_redc (rg (by simp)) (rg (by simp)) (fun b hb => rb (by simp [hb])) (hw _ (by simp [PyLayer.tensors, PyLayer.temporaries])) (nv l.kT (by simp)).2 (nv l.k (by simp)).2 ha
  · exact attnProjectBackward_redc (rg (by simp)) (rg (by simp)) (fun b hb => rb (by simp [hb])) (hw _ (by simp [PyLayer.tensors, PyLayer.temporaries])) (nv l.qT (by simp)).2 (nv l.q (by simp)).2 ha
omit hw in
theorem Attention.flashForward_redc : AllT (Task1.Redc N kd) (l.flashForwardAsync asIdx c) := by
  have hb : NoMse kd l.b.value := hn _ (by simp [PyLayer.tensors, PyLayer.temporaries])
  unfold Attention.flashForwardAsync
  refine AllT.seq fun a ha => ?_
  simp only [List.mem_append] at ha
  rcases ha with (((ha | ha) | ha) | ha) | ha
  · exact attnProject_redc (ht (l.qT.value, .add) (by unfold Attention.reductions; simp only [List.mem_append, List.mem_cons, eq_self, true_or, or_true])) (hn _ (by simp [PyLayer.tensors, PyLayer.temporaries])) (hn _ (by simp [PyLayer.tensors, PyLayer.temporaries])) ha
  · exact attnProject_redc (ht (l.kT.value, .add) (by unfold Attention.reductions; simp only [List.mem_append, List.mem_cons, eq_self, true_or, or_true])) (hn _ (by simp [PyLayer.tensors, PyLayer.temporaries])) (hn _ (by simp [PyLayer.tensors, PyLayer.temporaries])) ha
  · exact attnProject_redc (ht (l.vT.value, .add) (by unfold Attention.reductions; simp only [List.mem_append, List.mem_cons, eq_self, true_or, or_true])) (hn _ (by simp [PyLayer.tensors, PyLayer.temporaries])) (hn _ (by simp [PyLayer.tensors, PyLayer.temporaries])) ha
  · simp only [Attention.flashHeads, List.mem_cons, List.not_mem_nil, or_false] at ha
    rcases ha with rfl | rfl | rfl | rfl
    · exact clearAsync_mse _
    · cases l.mask with
      | none => exact AllT.error
      | some m => exact flashMaxsumexpAsync_redc
    · cases l.mask with
      | none => exact AllT.error
      | some m => exact (flashSoftmaxGemmAsync_plain ..).redc hb
    · exact invalidateAsync_mse _ _
  · have ny : NoMse kd l.y.value := hn _ (by simp [PyLayer.tensors, PyLayer.output])
    simp only [Attention.combine, List.mem_cons, List.not_mem_nil, or_false] at ha
    rcases ha with rfl | rfl | rfl | rfl
    · exact (transposeAsync_plain ..).redc (hn _ (by simp [PyLayer.tensors, PyLayer.temporaries]))
    · exact gemmAsync_redc (ht (l.y.value, .add) (by unfold Attention.reductions; simp only [List.mem_append, List.mem_cons, eq_self, true_or, or_true]))
    · exact AllT.inv (hn _ (by simp [PyLayer.tensors, PyLayer.temporaries]))
    · cases l.biasOut with
      | none => exact AllT.nil
      | some b => exact (addFiberAsync_plain ..).redc ny

theorem Attention.flashBackward_redc : AllT (Task1.Redc N kd) (l.flashBackwardAsync asIdx c) := by
  have wy : l.y.grad.WF := hw _ (by simp [PyLayer.tensors, PyLayer.output])
  have nv : ∀ m ∈ [l.qT, l.q, l.kT, l.k, l.vT, l.v, l.a, l.b, l.bT], NoMse kd m.value ∧ NoMse kd m.grad := by
    intro m hm
    refine ⟨hn _ ?_, hn _ ?_⟩ <;>
    · refine List.mem_append_right _ (List.mem_cons_of_mem _ (List.mem_flatMap.2 ⟨m, hm, by simp⟩))
  have rg : ∀ {m : Moments}, m ∈ [l.xq, l.xk, l.xv, l.wq, l.wk, l.wv, l.w, l.q, l.k, l.v, l.a, l.bT] → m.gradRequired = true → Tgt N kd .add m.grad := by
    intro m hm h
    refine ht (m.grad, .add) ?_
    simp only [List.mem_cons, List.not_mem_nil, or_false] at hm
    have := grad_mem h
    rcases hm with rfl | rfl | rfl | rfl | rfl | rfl | rfl | rfl | rfl | rfl | rfl | rfl <;> (unfold Attention.reductions; simp only [List.mem_append, this, true_or, or_true])
  have rb : ∀ {m : Moments}, some m ∈ [l.biasQ, l.biasK, l.biasV, l.biasOut] → m.gradRequired = true → Tgt N kd .add m.grad := by
    intro m hm h
    refine ht (m.grad, .add) ?_
    have : (m.grad, ReduxKind.add) ∈ ([l.biasQ, l.biasK, l.biasV, l.biasOut].filterMap id).flatMap Moments.reductionGrad :=
      List.mem_flatMap.2 ⟨m, List.mem_filterMap.2 ⟨some m, hm, rfl⟩, grad_mem h⟩
    unfold Attention.reductions
    simp only [List.mem_append, this, true_or]
  unfold Attention.flashBackwardAsync
  refine AllT.seq fun a ha => ?_
  simp only [List.mem_append] at ha
  rcases ha with (((ha | ha) | ha) | ha) | ha
  · simp only [Attention.combineBackward, List.mem_cons, List.not_mem_nil, or_false] at ha
    rcases ha with rfl | rfl | rfl | rfl | rfl | rfl
    · cases hb : l.biasOut with
      | none => exact AllT.nil
      | some b => exact AllT.whenT fun h => sumFiberAsync_redc wy (rb (by simp [hb]) h)
    · exact AllT.whenT fun h => gemmAsync_redc (rg (by simp) h)
    · exact AllT.inv (nv l.bT (by simp)).1
    · exact AllT.whenT fun h => gemmAsync_redc (rg (by simp) h)
    · exact AllT.when ((transposeAsync_plain ..).redc (nv l.b (by simp)).2)
    · exact AllT.inv (nv l.bT (by simp)).2
  · simp only [Attention.flashHeadsBackward, List.mem_cons, List.not_mem_nil, or_false] at ha
    rcases ha with rfl | rfl | rfl | rfl | rfl | rfl | rfl
    · exact clearAsync_mse _
    · cases l.mask with
      | none => exact AllT.error
      | some m => exact flashBackwardAsync_redc (nv l.q (by simp)).2 (nv l.k (by simp)).2 (nv l.v (by simp)).2 (hn _ (by simp [PyLayer.tensors, PyLayer.temporaries]))
    · exact AllT.inv (nv l.v (by simp)).1
    · exact AllT.inv (nv l.b (by simp)).2
    · exact AllT.inv (nv l.q (by simp)).1
    · exact AllT.inv (nv l.k (by simp)).1
    · exact AllT.inv (nv l.a (by simp)).2
  · exact attnProjectBackward_redc (rg (by simp)) (rg (by simp)) (fun b hb => rb (by simp [hb])) (hw _ (by simp [PyLayer.tensors, PyLayer.temporaries])) (nv l.vT (by simp)).2 (nv l.v (by simp)).2 ha
  · exact attnProjectBackward_redc (rg (by simp)) (rg (by simp)) (fun b hb => rb (by simp [hb])) (hw _ (by simp [PyLayer.tensors, PyLayer.temporaries])) (nv l.kT (by simp)).2 (nv l.k (by simp)).2 ha
  · exact attnProjectBackward_redc (rg (by simp)) (rg (by simp)) (fun b hb => rb (by simp [hb])) (hw _ (by simp [PyLayer.tensors, PyLayer.temporaries])) (nv l.qT (by simp)).2 (nv l.q (by simp)).2 ha
end attention

theorem PyLayer.forward_redc {l : PyLayer ℝ} {asIdx : ℝ → Int} {c : Bool} (ht : ∀ p ∈ l.reductions, Tgt N kd p.2 p.1) (hw : ∀ T ∈ l.tensors, T.WF) (hn : ∀ T ∈ l.tensors, NoMse kd T) : AllT (Task1.Redc N kd) (l.forwardAsync asIdx c) := by
  cases l with
  | act l =>
    have ny : NoMse kd l.y.value := hn _ (by simp [PyLayer.tensors, PyLayer.output])
    change AllT _ l.forwardAsync
    unfold Act.forwardAsync
    cases l.kind
    · exact AllT.cons ((reluForwardAsync_plain ..).redc ny) AllT.nil
    · exact AllT.cons ((copyAsync_plain ..).redc ny) (AllT.cons ((geluAsync_plain ..).redc ny) AllT.nil)
    · exact AllT.cons ((gelutanhAsync_plain ..).redc ny) AllT.nil
  | add l =>
    have ny : NoMse kd l.res.value := hn _ (by simp [PyLayer.tensors, PyLayer.output])
    exact AllT.cons ((copyAsync_plain ..).redc ny) (AllT.cons ((addAsync_plain ..).redc ny) AllT.nil)
  | addSlice l =>
    have ny : NoMse kd l.u.value := hn _ (by simp [PyLayer.tensors, PyLayer.output])
    exact AllT.cons ((copyAsync_plain ..).redc ny) (AllT.cons ((addSliceAsync_plain ..).redc ny) AllT.nil)
  | embedding l =>
    have ny : NoMse kd l.y.value := hn _ (by simp [PyLayer.tensors, PyLayer.output])
    exact AllT.cons ((clearAsync_plain ..).redc ny) (AllT.cons ((embeddingAsync_plain ..).redc ny) AllT.nil)
  | linear l => exact Linear.forward_redc ht hn
  | layerNorm l => exact LayerNorm.forward_redc ht hw hn
  | attention l => exact Attention.forward_redc ht hw hn
  | flash l => exact Attention.flashForward_redc ht hn

theorem PyLayer.backward_redc {l : PyLayer ℝ} {asIdx : ℝ → Int} {c : Bool} (ht : ∀ p ∈ l.reductions, Tgt N kd p.2 p.1) (hw : ∀ T ∈ l.tensors, T.WF) (hn : ∀ T ∈ l.tensors, NoMse kd T) : AllT (Task1.Redc N kd) (l.backwardAsync asIdx c) := by
  cases l with
  | act l =>
    have nx : NoMse kd l.x.grad := hn _ (by simp [PyLayer.tensors, PyLayer.inputs])
    change AllT _ l.backwardAsync
    unfold Act.backwardAsync
    refine AllT.cons (AllT.when ?_) AllT.nil
    cases l.kind
    · exact (reluBackwardAsync_plain ..).redc nx
    · exact (geluBackwardAsync_plain ..).redc nx
    · exact (gelutanhBackwardAsync_plain ..).redc nx
  | add l =>
    have nx : NoMse kd l.x.grad := hn _ (by simp [PyLayer.tensors, PyLayer.inputs])
    have ny : NoMse kd l.y.grad := hn _ (by simp [PyLayer.tensors, PyLayer.inputs])
    exact AllT.cons ((addAsync_plain ..).redc nx) (AllT.cons ((addAsync_plain ..).redc ny) AllT.nil)
  | addSlice l =>
    have nx : NoMse kd l.x.grad := hn _ (by simp [PyLayer.tensors, PyLayer.inputs])
    have wu : l.u.grad.WF := hw _ (by simp [PyLayer.tensors, PyLayer.output])
    exact AllT.cons ((addAsync_plain ..).redc nx) (AllT.cons (sumSliceAsync_redc wu (ht (l.y.grad, .add) (by simp [PyLayer.reductions, AddSliceLayer.reductions]))) AllT.nil)
  | embedding l =>
    have nw : NoMse kd l.w.grad := hn _ (by simp [PyLayer.tensors, PyLayer.parameters])
    exact AllT.cons ((embeddingBackwardAsync_plain ..).redc nw) AllT.nil
  | linear l => exact Linear.backward_redc ht hw
  | layerNorm l => exact LayerNorm.backward_redc ht hw hn _
  | attention l => exact Attention.backward_redc ht hw hn
  | flash l => exact Attention.flashBackward_redc ht hw hn

theorem totalSumAccumKernel_sz {f : ℝ → Int} {al : ℝ} {n m : Nat} {a a' a'' : Buf ℝ} (b : Buf ℝ) : SzAt b.size (totalSumAccumKernel f al n m a a' a'' b) := by
  unfold totalSumAccumKernel; sz

theorem totalSumAccumAsync_redc {f : ℝ → Int} {al : ℝ} {lse src labels val : Tensor} (hv : Tgt N kd .add val) :
    AllT (fun t => t.commuting.Redc N kd) (totalSumAccumAsync f al lse src labels val) := by
  unfold totalSumAccumAsync
  refine AllT.bind fun _ _ => AllT.bind fun _ _ => AllT.bind fun _ h3 => AllT.bind fun _ _ => AllT.bind fun _ _ => AllT.bind fun _ _ => AllT.bind fun _ _ => AllT.bind fun h hh =>
    AllT.forTasks fun i _ => AllT.bind fun _ _ => AllT.bind fun _ _ => AllT.bind fun _ _ => AllT.single ?_
  have h3 := throwIf_ok h3
  obtain ⟨ho, rfl⟩ := handleL_eq hh
  obtain ⟨k1, k2⟩ := hv.lin ho
  have hs : (val.tshapeL 0).prod = 1 := by
    have e : (val.tshapeL 0).length = 0 := by
      rw [Tensor.tshapeL, hv.wf.tshape_length (val.tindex_inBox 0)]
      exact not_not.1 h3
    rw [List.length_eq_zero_iff.1 e]
    rfl
  rw [show ∀ t : Task1 ℝ, t.codelet = "total_sum_accum" → t.commuting = { t with mode := .REDUX } from fun t h => if_pos h]
  swap
  · rfl
  refine Redc.of (k := .add) (n := 1) (fun rs b => ?_) k2 (k1.trans hs) (by decide) fun _ rs => ?_
  · dsimp only [submitTotalSumAccum]
    split
    · exact totalSumAccumKernel_sz b
    · exact SzAt.error
  · dsimp only [submitTotalSumAccum]
    split
    · exact Acc.accK_add (totalSumAccum_acc _ _ _ _ _ _ _)
    · exact AccK.error

theorem AllT.commuting {a : M (List (Task1 ℝ))} (h : AllT (Task1.Redc N kd) a) (h' : AllT Task1.NotTotal a) : AllT (fun t => t.commuting.Redc N kd) a := by
  unfold AllT at *
  intro ts e t ht
  rw [Task1.commuting, if_neg (h' ts e t ht)]
  exact h ts e t ht

theorem CrossEntropy.calc_redc {l : CrossEntropy ℝ} {asIdx : ℝ → Int} (ht : ∀ p ∈ l.reductions, Tgt N kd p.2 p.1) (hw : ∀ T ∈ l.tensors, T.WF) (hn : ∀ T ∈ l.tensors, NoMse kd T) :
    AllT (fun t => t.commuting.Redc N kd) (l.calcAsync asIdx) := by
  unfold CrossEntropy.calcAsync
  refine AllT.cons ?_ (AllT.cons ?_ (AllT.cons ?_ (AllT.cons ?_ (AllT.cons ?_ (AllT.cons ?_ AllT.nil)))))
  · exact (clearAsync_mse _).commuting (clearAsync_notTotal _)
  · exact (maxsumexpAsync_redc (hw _ (by simp [CrossEntropy.tensors])) (ht (l.maxsumexp, .maxsumexp) (by simp [CrossEntropy.reductions]))).commuting (maxsumexpAsync_notTotal ..)
  · exact ((logsumexpAsync_plain ..).redc (hn _ (by simp [CrossEntropy.tensors]))).commuting (logsumexpAsync_notTotal ..)
  · exact totalSumAccumAsync_redc (ht (l.val, .add) (by simp [CrossEntropy.reductions]))
  · exact AllT.when (((softmaxAsync_plain ..).redc (hn _ (by simp [CrossEntropy.tensors]))).commuting (softmaxAsync_notTotal ..))
  · exact AllT.when (((subtractIndexedAsync_plain ..).redc (hn _ (by simp [CrossEntropy.tensors]))).commuting (subtractIndexedAsync_notTotal ..))

/-- The mode of `total_sum_accum`. -/
theorem CrossEntropy.total_mode {l : CrossEntropy ℝ} {asIdx : ℝ → Int} : AllT (fun t => t.codelet = "total_sum_accum" → t.mode = .RW) (l.calcAsync asIdx) := by
  have nt : ∀ {a : M (List (Task1 ℝ))}, AllT Task1.NotTotal a → AllT (fun t => t.codelet = "total_sum_accum" → t.mode = .RW) a := fun h => h.imp fun t ht e => absurd e ht
  unfold CrossEntropy.calcAsync
  refine AllT.cons (nt (clearAsync_notTotal _)) (AllT.cons (nt (maxsumexpAsync_notTotal ..)) (AllT.cons (nt (logsumexpAsync_notTotal ..)) (AllT.cons ?_
    (AllT.cons (AllT.when (nt (softmaxAsync_notTotal ..))) (AllT.cons (AllT.when (nt (subtractIndexedAsync_notTotal ..))) AllT.nil)))))
  unfold totalSumAccumAsync
  at_
  rfl

end NNTile
