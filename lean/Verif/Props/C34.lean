import Verif.Lib.LayerNorm
import Verif.Lib.Store
import Verif.Props.C11
import Verif.Props.C11Axpy
import Verif.Props.C12
import Verif.Props.C13
import Verif.Props.C14
import Verif.Props.C15
import Verif.Props.C16
/-!
# C34 — layer normalization computes its definition and its exact gradients
-/
namespace NNTile
open Finset

set_option maxHeartbeats 1000000 in
/-- Forward propagation: `y = gamma*(x-mean)/sqrt(var+eps) + beta`, where mean and variance are taken over the dimension `axis`, for all shapes and tilings; the
normalized input and the inverse deviation are kept for backward propagation. Old contents of the results do not matter and nothing else is changed. -/
theorem C34_layer_norm_forward {n : LayerNorm ℝ} {a : Nat} {eps : ℝ} (fit : n.Fits a eps) {s : Store ℝ} (hr : ∀ T ∈ n.forwardTensors, T.Ready s)
    (ids : (n.forwardTensors.map Tensor.id).Nodup) (x gamma beta : List Nat → ℝ) (vx : n.x.value.Holds s x) (vg : n.gamma.value.Holds s gamma)
    (vb : n.beta.value.Holds s beta) :
    Runs n.forwardAsync s [n.y.value.id, n.tmpYValue.id, n.mean.id, n.invStddev.id] (fun s' =>
      n.y.value.Holds s' (lnOut a n.l eps gamma beta x) ∧ n.tmpYValue.Holds s' (lnHat a n.l eps x) ∧ n.invStddev.Holds s' (lnInv a n.l eps x) ∧
      ∀ T ∈ n.forwardTensors, T.Ready s') := by
  have inj : Function.Injective fun i => (n.ft i).id := get_id_injective ids
  have hne : ∀ i j, i ≠ j → (n.ft i).id ≠ (n.ft j).id := fun i j h e => h (inj e)
  have h0 : St n.ft s (fun i => if i = 0 then some x else if i = 2 then some gamma else if i = 3 then some beta else none) := St.ofList hr _ (by
    intro i v hv
    change Fin 7 at i
    by_cases i0 : i = 0
    · subst i0; cases hv; exact vx
    by_cases i2 : i = 2
    · subst i2; cases hv; exact vg
    by_cases i3 : i = 3
    · subst i3; cases hv; exact vb
    simp [i0, i2, i3] at hv)
  have hsame := fit.same
  have hsl := fit.slice
  have hfib := fit.fiber
  have hlt := fit.lt
  simp only [List.forall_mem_cons, List.not_mem_nil, IsEmpty.forall_iff, implies_true, and_true] at hsame hsl hfib
  obtain ⟨⟨y1, y2⟩, -, -, ⟨t1, t2⟩, -⟩ := hsame
  obtain ⟨fg, -, fb, -⟩ := hfib
  obtain ⟨sm, si⟩ := hsl
  have hl : n.l = n.x.value.shape.getD a 0 := fit.l
  have hl0 : 0 < n.l := by rw [hl]; exact (h0.ready 0).1.1.getD hlt
  have hl' : (n.l : ℝ) ≠ 0 := by positivity
  have hlit : (FP.lit (1 / 2) : ℝ) = 1 / 2 := by simp [FP.lit]
  rw [LayerNorm.forwardAsync, fit.axis]
  -- mean
  refine h0.step inj (i := 5) ((C14_sum_slice (h0.ready 0) (h0.ready 5) (hne 0 5 (by decide)) sm _ 0 _ x 0 (h0.hold 0 _ rfl) (by simp)).congr
    (w := lnMean a n.l x) fun J _ => ?_) (by simp [LayerNorm.ft, LayerNorm.forwardTensors]) fun s1 h1 => ?_
  · change 0 * (0 : ℝ) + 1 / ((n.l : Int) : ℝ) * ∑ L ∈ range (n.x.value.shape.getD a 0), x (J.insertIdx a L) = _
    rw [lnMean, hl]; push_cast; ring
  -- x - mean
  have smt : n.mean.SliceOf n.tmpYValue a := ⟨by rw [t1]; exact sm.axis, by rw [t1]; exact sm.shape, by rw [t2]; exact sm.basetile⟩
  have sit : n.invStddev.SliceOf n.tmpYValue a := ⟨by rw [t1]; exact si.axis, by rw [t1]; exact si.shape, by rw [t2]; exact si.basetile⟩
  have fgt : n.gamma.value.FiberOf n.y.value a 0 := ⟨by rw [y1]; exact fg.axis, by rw [y1]; exact fg.shape, by rw [y1, y2]; exact fg.basetile⟩
  have fbt : n.beta.value.FiberOf n.y.value a 0 := ⟨by rw [y1]; exact fb.axis, by rw [y1]; exact fb.shape, by rw [y1, y2]; exact fb.basetile⟩
  refine h1.step inj (i := 4) ((C12_add_slice3 (h1.ready 5) (h1.ready 0) (h1.ready 4) (hne 5 4 (by decide))
    ⟨hne 0 4 (by decide), t1.symm, t2.symm⟩ smt (-1) 1 _ x (h1.hold 5 _ rfl) (fun _ => h1.hold 0 _ rfl)).congr
    (w := fun I => x I - lnMean a n.l x (I.eraseIdx a)) fun I _ => by ring)
    (by simp [LayerNorm.ft, LayerNorm.forwardTensors]) fun s2 h2 => ?_
  -- norm
  refine h2.step inj (i := 6) (C16_norm_slice (h2.ready 4) (h2.ready 6) (hne 4 6 (by decide)) sit _ 0 _ _ 0
    (h2.hold 4 _ rfl) (by simp)) (by simp [LayerNorm.ft, LayerNorm.forwardTensors]) fun s3 h3 => ?_
  -- inverse deviation
  have e4 : ∀ J, (FP.lit 1 : ℝ) / FP.hypot (1 * Real.sqrt ((0 * (0 : List Nat → ℝ) J) ^ 2 + (1 / FP.pow (FP.ofIndex n.l) (FP.lit (1 / 2))) ^ 2 *
      ∑ L ∈ range (n.tmpYValue.shape.getD a 0), (x (J.insertIdx a L) - lnMean a n.l x ((J.insertIdx a L).eraseIdx a)) ^ 2)) n.eps =
      lnInv a n.l eps x J := by
    intro J
    have e1 : (FP.lit 1 : ℝ) = 1 := by simp [FP.lit]
    rw [e1, hlit, lnInv, fit.eps, t1, ← hl]
    simp only [FP.hypot, FP.pow, FP.ofIndex, one_mul, erase_insert]
    congr 2
    rw [Real.sq_sqrt (by positivity), ← Real.rpow_natCast (eps ^ (1 / 2 : ℝ)) 2, ← Real.rpow_mul fit.pos.le, lnVar]
    have e2 : ((((n.l : Int) : ℝ)) ^ (1 / 2 : ℝ)) ^ 2 = (n.l : ℝ) := by
      rw [← Real.rpow_natCast, ← Real.rpow_mul (by positivity)]; norm_num
    rw [div_pow, e2]
    norm_num
    rw [div_eq_inv_mul]
  refine h3.step inj (i := 6) ((C11_hypot_scalar_inverse (h3.ready 6) n.eps 1 _ (h3.hold 6 _ rfl)).congr
    (w := lnInv a n.l eps x) fun J _ => e4 J)
    (by simp [LayerNorm.ft, LayerNorm.forwardTensors]) fun s4 h4 => ?_
  -- normalized input
  refine h4.step inj (i := 4) ((C12_prod_slice (h4.ready 6) (h4.ready 4) (hne 6 4 (by decide)) sit 1 _ _
    (h4.hold 6 _ rfl) (h4.hold 4 _ rfl)).congr (w := lnHat a n.l eps x) fun I _ => ?_)
    (by simp [LayerNorm.ft, LayerNorm.forwardTensors]) fun s5 h5 => ?_
  · rw [lnHat]; ring
  refine h5.step inj (i := 1) (C13_prod_fiber3 (h5.ready 2) (h5.ready 4) (h5.ready 1) (hne 2 1 (by decide))
    ⟨hne 4 1 (by decide), t1.trans y1.symm, t2.trans y2.symm⟩ fgt 1 _ _
    (h5.hold 2 _ rfl) (h5.hold 4 _ rfl))
    (by simp [LayerNorm.ft, LayerNorm.forwardTensors]) fun s6 h6 => ?_
  refine h6.step inj (i := 1) ((C13_add_fiber_partial (h6.ready 3) (h6.ready 1) (hne 3 1 (by decide))
    fbt 1 1 (by simp) _ _ (h6.hold 3 _ rfl) (fun _ => h6.hold 1 _ rfl)).congr (w := lnOut a n.l eps gamma beta x) fun I _ => ?_)
    (by simp [LayerNorm.ft, LayerNorm.forwardTensors]) fun s7 h7 => Runs.nil ⟨h7.hold 1 _ rfl, h7.hold 4 _ rfl, h7.hold 6 _ rfl, ?_⟩
  · simp [lnOut, fiberIdx]
  · intro T hT
    obtain ⟨i, rfl⟩ := List.get_of_mem hT
    exact h7.ready i

set_option maxHeartbeats 1000000 in
/-- Backward propagation after forward propagation (which has left the normalized input and the inverse deviation): the exact gradients over `x`, `gamma` and
`beta` are added to the old contents of the gradients. Besides these only the temporary tensors are changed. -/
theorem C34_layer_norm_backward {n : LayerNorm ℝ} {a : Nat} {eps : ℝ} (fit : n.Fits a eps) (invalidate : Bool) {s : Store ℝ}
    (hr : ∀ T ∈ n.backwardTensors, T.Ready s) (hx : n.x.value.WF) (ids : (n.backwardTensors.map Tensor.id).Nodup) (x gamma beta dy x0 gamma0 beta0 : List Nat → ℝ)
    (vt : n.tmpYValue.Holds s (lnHat a n.l eps x)) (vi : n.invStddev.Holds s (lnInv a n.l eps x)) (vg : n.gamma.value.Holds s gamma)
    (vdy : n.y.grad.Holds s dy) (vx0 : n.x.grad.Holds s x0) (vg0 : n.gamma.grad.Holds s gamma0) (vb0 : n.beta.grad.Holds s beta0) :
    Runs (n.backwardAsync invalidate) s [n.x.grad.id, n.gamma.grad.id, n.beta.grad.id, n.tmpYValue.id, n.tmpYGrad.id, n.mean.id, n.invStddev.id] (fun s' =>
      ∃ gx gg gb : List Nat → ℝ, n.x.grad.Holds s' (fun I => x0 I + gx I) ∧ n.gamma.grad.Holds s' (fun I => gamma0 I + gg I) ∧
        n.beta.grad.Holds s' (fun I => beta0 I + gb I) ∧
        IsGrad n.x.value.shape n.y.value.shape (fun x => lnOut a n.l eps gamma beta x) x dy gx ∧
        IsGrad n.gamma.value.shape n.y.value.shape (fun gamma => lnOut a n.l eps gamma beta x) gamma dy gg ∧
        IsGrad n.beta.value.shape n.y.value.shape (fun beta => lnOut a n.l eps gamma beta x) beta dy gb ∧
        ∀ T ∈ n.backwardTensors, T.Ready s') := by
  have inj : Function.Injective fun i => (n.bt i).id := get_id_injective ids
  have hne : ∀ i j, i ≠ j → (n.bt i).id ≠ (n.bt j).id := fun i j h e => h (inj e)
  have h0 : St n.bt s (fun i => if i = 0 then some dy else if i = 1 then some x0 else if i = 2 then some gamma else if i = 3 then some gamma0 else
      if i = 4 then some beta0 else if i = 5 then some (lnHat a n.l eps x) else if i = 8 then some (lnInv a n.l eps x) else none) := St.ofList hr _ (by
    intro i v hv
    change Fin 9 at i
    by_cases i0 : i = 0
    · subst i0; cases hv; exact vdy
    by_cases i1 : i = 1
    · subst i1; cases hv; exact vx0
    by_cases i2 : i = 2
    · subst i2; cases hv; exact vg
    by_cases i3 : i = 3
    · subst i3; cases hv; exact vg0
    by_cases i4 : i = 4
    · subst i4; cases hv; exact vb0
    by_cases i5 : i = 5
    · subst i5; cases hv; exact vt
    by_cases i8 : i = 8
    · subst i8; cases hv; exact vi
    simp [i0, i1, i2, i3, i4, i5, i8] at hv)
  have hsame := fit.same
  have hsl := fit.slice
  have hfib := fit.fiber
  have hlt := fit.lt
  simp only [List.forall_mem_cons, List.not_mem_nil, IsEmpty.forall_iff, implies_true, and_true] at hsame hsl hfib
  obtain ⟨⟨y1, y2⟩, ⟨dy1, dy2⟩, ⟨dx1, dx2⟩, ⟨t1, t2⟩, dt1, dt2⟩ := hsame
  obtain ⟨fg, fgg, fb, fbg⟩ := hfib
  obtain ⟨sm, si⟩ := hsl
  have hl : n.l = n.x.value.shape.getD a 0 := fit.l
  have hfib : ∀ {A B : Tensor}, A.FiberOf n.x.value a 0 → B.shape = n.x.value.shape → B.basetile = n.x.value.basetile → A.FiberOf B a 0 :=
    fun hA h1 h2 => ⟨by rw [h1]; exact hA.axis, by rw [h1]; exact hA.shape, by rw [h1, h2]; exact hA.basetile⟩
  have hsli : ∀ {A B : Tensor}, A.SliceOf n.x.value a → B.shape = n.x.value.shape → B.basetile = n.x.value.basetile → A.SliceOf B a :=
    fun hA h1 h2 => ⟨by rw [h1]; exact hA.axis, by rw [h1]; exact hA.shape, by rw [h2]; exact hA.basetile⟩
  rw [LayerNorm.backwardAsync, fit.axis]
  -- gradient over beta
  refine h0.step inj (i := 4) ((C15_sum_fiber (h0.ready 0) (h0.ready 4) (hne 0 4 (by decide)) (hfib fbg dy1 dy2) 1 1 _ _ _ (h0.hold 0 _ rfl)
    (fun _ => h0.hold 4 _ rfl)).congr (w := fun J => beta0 J + ∑ I ∈ (box n.x.value.shape).filter (fun I => [I.getD a 0] = J), dy I) fun J _ => ?_)
    (by simp [LayerNorm.bt, LayerNorm.backwardTensors]) fun s1 h1 => ?_
  · change 1 * beta0 J + 1 * ∑ I ∈ (box n.y.grad.shape).filter (fun I => fiberIdx a 0 I = J), dy I = _
    simp [fiberIdx, dy1]
  -- gradient over gamma
  refine h1.step inj (i := 3) ((C15_sumprod_fiber_partial (h1.ready 0) (h1.ready 5) (h1.ready 3) (hne 0 3 (by decide)) (hne 5 3 (by decide)) (hfib fgg dy1 dy2)
    (t1.trans dy1.symm) (t2.trans dy2.symm) 1 1 _ _ _ _ (h1.hold 0 _ rfl) (h1.hold 5 _ rfl)
    (fun _ => h1.hold 3 _ rfl)).congr (w := fun J => gamma0 J + ∑ I ∈ (box n.x.value.shape).filter (fun I => [I.getD a 0] = J), dy I * lnHat a n.l eps x I) fun J _ => ?_)
    (by simp [LayerNorm.bt, LayerNorm.backwardTensors]) fun s2 h2 => ?_
  · change 1 * gamma0 J + 1 * ∑ I ∈ (box n.y.grad.shape).filter (fun I => [I.getD a 0] = J), dy I * lnHat a n.l eps x I = _
    simp [dy1]
  -- gradient over the normalized input
  refine h2.step inj (i := 6) ((C13_prod_fiber3 (h2.ready 2) (h2.ready 0) (h2.ready 6) (hne 2 6 (by decide))
    ⟨hne 0 6 (by decide), dy1.trans dt1.symm, dy2.trans dt2.symm⟩ (hfib fg dt1 dt2) 1 _ _ (h2.hold 2 _ rfl) (h2.hold 0 _ rfl)).congr
    (w := fun I => gamma [I.getD a 0] * dy I) fun I _ => by ring)
    (by simp [LayerNorm.bt, LayerNorm.backwardTensors]) fun s3 h3 => ?_
  -- mean of products
  refine h3.step inj (i := 7) ((C14_sumprod_slice_partial (h3.ready 6) (h3.ready 5) (h3.ready 7) (hne 6 7 (by decide)) (hne 5 7 (by decide)) (hsli sm dt1 dt2)
    (t1.trans dt1.symm) (t2.trans dt2.symm) _ 0 _ _ _ 0 (h3.hold 6 _ rfl) (h3.hold 5 _ rfl) (by simp)).congr
    (w := fun J => -((∑ k ∈ range n.l, gamma [(J.insertIdx a k).getD a 0] * dy (J.insertIdx a k) * lnHat a n.l eps x (J.insertIdx a k)) / n.l)) fun J _ => ?_)
    (by simp [LayerNorm.bt, LayerNorm.backwardTensors]) fun s4 h4 => ?_
  · change 0 * (0 : ℝ) + -1 / ((n.l : Int) : ℝ) * ∑ k ∈ range (n.tmpYGrad.shape.getD a 0),
      gamma [(J.insertIdx a k).getD a 0] * dy (J.insertIdx a k) * lnHat a n.l eps x (J.insertIdx a k) = _
    rw [dt1, ← hl]; push_cast; ring
  refine h4.step inj (i := 5) (C12_prod_slice (h4.ready 7) (h4.ready 5) (hne 7 5 (by decide)) (hsli sm t1 t2) 1 _ _ (h4.hold 7 _ rfl) (h4.hold 5 _ rfl))
    (by simp [LayerNorm.bt, LayerNorm.backwardTensors]) fun s5 h5 => ?_
  refine h5.step inj (i := 5) (C11_axpy_scalar (h5.ready 6) (h5.ready 5) ⟨hne 6 5 (by decide), dt1.trans t1.symm, dt2.trans t2.symm⟩ 1 _ _
    (h5.hold 6 _ rfl) (h5.hold 5 _ rfl)) (by simp [LayerNorm.bt, LayerNorm.backwardTensors]) fun s6 h6 => ?_
  -- mean
  refine h6.step inj (i := 7) ((C14_sum_slice (h6.ready 6) (h6.ready 7) (hne 6 7 (by decide)) (hsli sm dt1 dt2) _ 0 _ _ 0 (h6.hold 6 _ rfl) (by simp)).congr
    (w := fun J => (∑ k ∈ range n.l, gamma [(J.insertIdx a k).getD a 0] * dy (J.insertIdx a k)) / n.l) fun J _ => ?_)
    (by simp [LayerNorm.bt, LayerNorm.backwardTensors]) fun s7 h7 => ?_
  · change 0 * (0 : ℝ) + 1 / ((n.l : Int) : ℝ) * ∑ k ∈ range (n.tmpYGrad.shape.getD a 0), gamma [(J.insertIdx a k).getD a 0] * dy (J.insertIdx a k) = _
    rw [dt1, ← hl]; push_cast; ring
  refine h7.invalidate inj 6 _ (by simp [LayerNorm.bt, LayerNorm.backwardTensors]) fun s8 h8 => ?_
  refine h8.step inj (i := 5) (C12_add_slice (h8.ready 7) (h8.ready 5) (hne 7 5 (by decide)) (hsli sm t1 t2) (-1) 1 _ _ (h8.hold 7 _ rfl) (fun _ => h8.hold 5 _ rfl))
    (by simp [LayerNorm.bt, LayerNorm.backwardTensors]) fun s9 h9 => ?_
  refine h9.invalidate inj 7 _ (by simp [LayerNorm.bt, LayerNorm.backwardTensors]) fun s10 h10 => ?_
  refine h10.step inj (i := 5) (C12_prod_slice (h10.ready 8) (h10.ready 5) (hne 8 5 (by decide)) (hsli si t1 t2) 1 _ _ (h10.hold 8 _ rfl) (h10.hold 5 _ rfl))
    (by simp [LayerNorm.bt, LayerNorm.backwardTensors]) fun s11 h11 => ?_
  refine h11.invalidate inj 8 _ (by simp [LayerNorm.bt, LayerNorm.backwardTensors]) fun s12 h12 => ?_
  refine h12.step inj (i := 1) ((C11_axpy_scalar (h12.ready 5) (h12.ready 1) ⟨hne 5 1 (by decide), t1.trans dx1.symm, t2.trans dx2.symm⟩ 1 _ _
    (h12.hold 5 _ rfl) (h12.hold 1 _ rfl)).congr (w := fun I => x0 I + lnInv a n.l eps x (I.eraseIdx a) * (gamma [I.getD a 0] * dy I
        - (∑ k ∈ range n.l, gamma [k] * dy ((I.eraseIdx a).insertIdx a k)) / n.l
        - lnHat a n.l eps x I *
          ((∑ k ∈ range n.l, gamma [k] * dy ((I.eraseIdx a).insertIdx a k) * lnHat a n.l eps x ((I.eraseIdx a).insertIdx a k)) / n.l))) fun I hI => ?_)
    (by simp [LayerNorm.bt, LayerNorm.backwardTensors]) fun s13 h13 => ?_
  · have hIl : a ≤ (I.eraseIdx a).length := by
      have h : I.length = n.x.value.shape.length := by rw [← dx1]; exact hI.length
      rw [List.length_eraseIdx_of_lt (by omega)]; omega
    simp only [getD_insert hIl]
    ring
  refine h13.invalidate inj 5 _ (by simp [LayerNorm.bt, LayerNorm.backwardTensors]) fun s14 h14 => ?_
  refine Runs.nil ⟨_, _, _, h14.hold 1 _ rfl, h14.hold 3 _ rfl, h14.hold 4 _ rfl, ?_, ?_, ?_, ?_⟩
  · rw [y1, hl]
    exact layerNorm_grad_x hlt hx.1 fit.pos gamma beta x dy
  · rw [y1, fg.shape, List.drop_eq_nil_of_le (by omega)]
    exact layerNorm_grad_gamma hlt _ _ gamma beta x dy
  · rw [y1, fb.shape, List.drop_eq_nil_of_le (by omega)]
    exact layerNorm_grad_beta hlt _ _ gamma beta x dy
  · intro T hT
    obtain ⟨i, rfl⟩ := List.get_of_mem hT
    exact h14.ready i

/-! ### Construction -/

/-- `LayerNorm.generate_simple` succeeds for each dimension `axis` of `x` and positive `eps`; the layer it returns fits, so that the two theorems above apply to it,
the new tensors get new, different identities, and the tasks it submits initialize `gamma` with ones and `beta` with zeros. -/
theorem C34_layer_norm_generate {x : Moments} (hx : x.value.WF) (hg : x.grad.shape = x.value.shape ∧ x.grad.basetile = x.value.basetile) {a : Nat}
    (ha : a < x.value.ndim) {eps : ℝ} (he : 0 < eps) (next : Nat) (redux : Bool) :
    ∃ n tasks, LayerNorm.generate x a eps next redux = .ok (n, tasks) ∧ n.x = x ∧ n.Fits a eps ∧
      (let new := [n.y.value, n.y.grad, n.gamma.value, n.gamma.grad, n.beta.value, n.beta.grad, n.tmpYValue, n.tmpYGrad, n.mean, n.invStddev]
      (∀ T ∈ new, T.WF ∧ next ≤ T.id ∧ T.id < next + 10) ∧ (new.map Tensor.id).Nodup) ∧ (∀ m ∈ [n.y, n.gamma, n.beta], m.gradRequired = true) ∧
      ∀ s : Store ℝ, n.gamma.value.Ready s → n.beta.value.Ready s → ∃ s', runAll1 tasks s = .ok s' ∧ OnlyChanged [n.gamma.value.id, n.beta.value.id] s s' ∧
        n.gamma.value.Holds s' (fun _ => 1) ∧ n.beta.value.Holds s' (fun _ => 0) ∧ n.gamma.value.Ready s' ∧ n.beta.value.Ready s' := by
  obtain ⟨⟨id, X, T⟩, xg, xr⟩ := x
  obtain ⟨hX, hT, hXT⟩ := hx
  simp only [Tensor.ndim] at *
  have ha' : ¬ ((a : Int) < 0) := by omega
  have ha1 : ¬ ((a : Int) + 1 < 0) := by omega
  have hpi : ∀ L : List Nat, L.length = X.length → pyIndex L a = .ok (L.getD a 0) := by
    intro L hL
    rw [pyIndex, if_neg ha', throwIf_neg (by omega), M.bind_ok, Int.toNat_natCast]
  have hpt : ∀ L : List Nat, pyTake L a ++ pyDrop L (a + 1) = L.eraseIdx a := by
    intro L
    rw [pyTake, pyDrop, if_neg ha', if_neg ha1, List.eraseIdx_eq_take_drop_succ]
    rfl
  have hm : Pos (X.eraseIdx a) ∧ Pos (T.eraseIdx a) ∧ (T.eraseIdx a).length = (X.eraseIdx a).length := by
    refine ⟨hX.eraseIdx a, hT.eraseIdx a, ?_⟩
    rw [List.length_eraseIdx_of_lt ha, List.length_eraseIdx_of_lt (by omega), hXT]
  have hml : (X.eraseIdx a).length = X.length - 1 := List.length_eraseIdx_of_lt ha
  have hf : Pos [X.getD a 0] ∧ Pos [T.getD a 0] ∧ [T.getD a 0].length = [X.getD a 0].length := by
    refine ⟨?_, ?_, rfl⟩
    · intro v hv
      simp only [List.mem_singleton] at hv; subst hv
      exact hX.getD ha
    · intro v hv
      simp only [List.mem_singleton] at hv; subst hv
      exact hT.getD (by omega)
  obtain ⟨tb, htb⟩ : ∃ tb, clearAsync (α := ℝ) ⟨next + 4, [X.getD a 0], [T.getD a 0]⟩ = .ok tb := ⟨_, loop0_ok⟩
  obtain ⟨tg, htg⟩ : ∃ tg, fillAsync (1 : ℝ) ⟨next + 2, [X.getD a 0], [T.getD a 0]⟩ = .ok tg := ⟨_, loop0_ok⟩
  have htasks : seqAsync [clearAsync (α := ℝ) ⟨next + 4, [X.getD a 0], [T.getD a 0]⟩, fillAsync (1 : ℝ) ⟨next + 2, [X.getD a 0], [T.getD a 0]⟩] = .ok (tb ++ (tg ++ [])) := by
    simp only [seqAsync, htb, htg, M.bind_ok]
  have e0 : LayerNorm.generate ⟨⟨id, X, T⟩, xg, xr⟩ a eps next redux = .ok (⟨⟨⟨id, X, T⟩, xg, xr⟩, ⟨⟨next, X, T⟩, ⟨next + 1, X, T⟩, true⟩,
      ⟨⟨next + 2, [X.getD a 0], [T.getD a 0]⟩, ⟨next + 3, [X.getD a 0], [T.getD a 0]⟩, true⟩,
      ⟨⟨next + 4, [X.getD a 0], [T.getD a 0]⟩, ⟨next + 5, [X.getD a 0], [T.getD a 0]⟩, true⟩,
      ⟨next + 6, X, T⟩, ⟨next + 7, X, T⟩, ⟨next + 8, X.eraseIdx a, T.eraseIdx a⟩, ⟨next + 9, X.eraseIdx a, T.eraseIdx a⟩, a, X.getD a 0,
      FP.pow eps (FP.lit (1/2)), redux⟩, tb ++ (tg ++ [])) := by
    unfold LayerNorm.generate
    simp only [newTensor_ok (⟨hX, hT, hXT⟩ : Pos X ∧ Pos T ∧ T.length = X.length), M.bind_ok, hpi X rfl, hpi T hXT, newTensor_ok hf, hpt, newTensor_ok hm,
      LayerNorm.init, htasks]
    rw [throwIf_neg (by simp [hm]), M.bind_ok, throwIf_neg, M.bind_ok]
    simp only [pyTake, pyDrop, if_neg ha', Int.toNat_natCast, List.length_take, List.length_drop, hml]
    omega
  refine ⟨_, _, e0, rfl, ?_, ⟨?_, ?_⟩, by simp, ?_⟩
  · refine ⟨rfl, ha, rfl, he, ?_, ?_, ?_, ?_⟩
    · simp [FP.pow, FP.lit]
    · simp [hg]
    · have : ∀ i, Tensor.FiberOf ⟨i, [X.getD a 0], [T.getD a 0]⟩ ⟨id, X, T⟩ a 0 := fun i => ⟨by simpa using ha, by simp, by simp [hXT]⟩
      simp only [List.forall_mem_cons, this, List.not_mem_nil, IsEmpty.forall_iff, implies_true, and_true]
    · have : ∀ i, Tensor.SliceOf ⟨i, X.eraseIdx a, T.eraseIdx a⟩ ⟨id, X, T⟩ a := fun i => ⟨by simpa using ha, rfl, rfl⟩
      simp [this]
  · have h1 : ∀ i, Tensor.WF ⟨i, X, T⟩ := fun _ => ⟨hX, hT, hXT⟩
    have h2 : ∀ i, Tensor.WF ⟨i, [X.getD a 0], [T.getD a 0]⟩ := fun _ => hf
    have h3 : ∀ i, Tensor.WF ⟨i, X.eraseIdx a, T.eraseIdx a⟩ := fun _ => hm
    simp only [List.forall_mem_cons, h1, h2, h3, List.not_mem_nil, IsEmpty.forall_iff, implies_true, and_true, true_and]
    omega
  · simp
  · intro s hg hb
    obtain ⟨t, s1, c1, c2, c3, c4, c5⟩ := C11_clear hb
    rw [htb] at c1; cases c1
    have hg1 := c4.ready hg (by simp)
    obtain ⟨t, s2, d1, d2, d3, d4, d5⟩ := C11_fill hg1 1
    rw [htg] at d1; cases d1
    refine ⟨s2, ?_, (c4.trans d4).mono (by simp), d3, d4.holds c3 (by simp), d5, d4.ready c5 (by simp)⟩
    rw [runAll1_append, c2, M.bind_ok, List.append_nil, d2]

/-- `generate_simple` raises an exception if `axis` is not smaller than the number of dimensions of `x`. -/
theorem C34_layer_norm_generate_rejects {x : Moments} (hx : x.value.WF) {axis : Int} (h : x.value.ndim ≤ axis) (eps : ℝ) (next : Nat) (redux : Bool) :
    Throws (LayerNorm.generate x axis eps next redux) := by
  unfold LayerNorm.generate
  have hi : Throws (pyIndex x.value.shape axis) := by
    rw [pyIndex]
    simp only [Tensor.ndim] at h
    refine throws_pos ?_
    rw [if_neg (by omega)]
    exact Or.inr h
  simp only [newTensor_ok (show Pos x.value.shape ∧ Pos x.value.basetile ∧ x.value.basetile.length = x.value.shape.length from hx), M.bind_ok]
  exact hi.bind

/-- A layer with a negative `axis` (or one not smaller than the number of dimensions of `x`) does not compute anything: forward propagation throws. -/
theorem C34_layer_norm_forward_rejects (n : LayerNorm ℝ) (hx : n.x.value.WF) (hm : n.mean.WF) (h : n.axis < 0 ∨ n.x.value.ndim ≤ n.axis) : Throws n.forwardAsync := by
  rw [LayerNorm.forwardAsync, seqAsync]
  refine Throws.bind ?_
  refine C14_sum_slice_rejects hx hm _ _ _ _ ?_
  rintro ⟨a, ha, hs⟩
  have := hs.axis
  simp only [Tensor.ndim] at h
  omega

/-! ### The hypotheses can be met -/

/-- A layer for `x` of shape `5×7` in tiles `2×3`, normalized over the second dimension. -/
noncomputable def layerNormExample : LayerNorm ℝ :=
  { x := ⟨⟨0, [5, 7], [2, 3]⟩, ⟨1, [5, 7], [2, 3]⟩, true⟩, y := ⟨⟨2, [5, 7], [2, 3]⟩, ⟨3, [5, 7], [2, 3]⟩, true⟩,
    gamma := ⟨⟨4, [7], [3]⟩, ⟨5, [7], [3]⟩, true⟩, beta := ⟨⟨6, [7], [3]⟩, ⟨7, [7], [3]⟩, true⟩, tmpYValue := ⟨8, [5, 7], [2, 3]⟩,
    tmpYGrad := ⟨9, [5, 7], [2, 3]⟩, mean := ⟨10, [5], [2]⟩, invStddev := ⟨11, [5], [2]⟩, axis := 1, l := 7, eps := (1 / 100) ^ (1 / 2 : ℝ), redux := false }

theorem layerNormExample_fits : layerNormExample.Fits 1 (1 / 100) := by
  refine ⟨rfl, by simp [layerNormExample], rfl, by norm_num, rfl, by simp [layerNormExample], ?_, ?_⟩
  · have : ∀ i, Tensor.FiberOf ⟨i, [7], [3]⟩ layerNormExample.x.value 1 0 := fun i => ⟨by simp [layerNormExample], rfl, rfl⟩
    simp only [List.forall_mem_cons, List.not_mem_nil, IsEmpty.forall_iff, implies_true, and_true]
    simp only [layerNormExample] at this ⊢
    simp only [this, and_self]
  · have : ∀ i, Tensor.SliceOf ⟨i, [5], [2]⟩ layerNormExample.x.value 1 := fun i => ⟨by simp [layerNormExample], rfl, rfl⟩
    simp only [List.forall_mem_cons, List.not_mem_nil, IsEmpty.forall_iff, implies_true, and_true]
    simp only [layerNormExample] at this ⊢
    simp only [this, and_self]

/-- Forward propagation followed by backward propagation. -/
example (x gamma beta dy x0 gamma0 beta0 : List Nat → ℝ) : ∃ s s' s'' : Store ℝ, ∃ t t' gx,
    layerNormExample.forwardAsync = .ok t ∧ runAll1 t s = .ok s' ∧ layerNormExample.backwardAsync true = .ok t' ∧ runAll1 t' s' = .ok s'' ∧
    layerNormExample.y.value.Holds s'' (lnOut 1 7 (1 / 100) gamma beta x) ∧ layerNormExample.x.grad.Holds s'' (fun I => x0 I + gx I) ∧
    IsGrad [5, 7] [5, 7] (fun x => lnOut 1 7 (1 / 100) gamma beta x) x dy gx := by
  have h := storeOf_spec [(layerNormExample.x.value, x), (layerNormExample.x.grad, x0), (layerNormExample.y.value, fun _ => 0), (layerNormExample.y.grad, dy),
    (layerNormExample.gamma.value, gamma), (layerNormExample.gamma.grad, gamma0), (layerNormExample.beta.value, beta), (layerNormExample.beta.grad, beta0),
    (layerNormExample.tmpYValue, fun _ => 0), (layerNormExample.tmpYGrad, fun _ => 0), (layerNormExample.mean, fun _ => 0), (layerNormExample.invStddev, fun _ => 0)]
    (by simp [layerNormExample, Tensor.WF]) (by simp [layerNormExample])
  simp only [List.forall_mem_cons, List.not_mem_nil, IsEmpty.forall_iff, implies_true, and_true] at h
  obtain ⟨hx, hxg, hy, hyg, hw, hwg, hb, hbg, ht, htg, hm, hi⟩ := h
  obtain ⟨t, s', e1, e2, e3, f1, f2, f3, f4⟩ := C34_layer_norm_forward layerNormExample_fits (s := _) (by
    simp only [LayerNorm.forwardTensors, List.forall_mem_cons]
    exact ⟨hx.1, hy.1, hw.1, hb.1, ht.1, hm.1, hi.1, by simp⟩) (by simp [LayerNorm.forwardTensors, layerNormExample]) x gamma beta hx.2 hw.2 hb.2
  have k : ∀ {T : Tensor}, T.id ∉ [2, 8, 10, 11] → T.Ready _ → T.Ready s' := fun h hr => e3.ready hr h
  have kh : ∀ {T : Tensor} {v}, T.id ∉ [2, 8, 10, 11] → T.Holds _ v → T.Holds s' v := fun h hr => e3.holds hr h
  simp only [LayerNorm.forwardTensors, List.forall_mem_cons] at f4
  obtain ⟨-, gy, -, -, gt, gm, gi, -⟩ := f4
  obtain ⟨t', s'', p1, p2, p3, gx, gg, gb, q1, q2, q3, q4, q5, q6, -⟩ := C34_layer_norm_backward layerNormExample_fits true (s := s') (by
    simp only [LayerNorm.backwardTensors, List.forall_mem_cons]
    exact ⟨k (by decide) hyg.1, k (by decide) hxg.1, k (by decide) hw.1, k (by decide) hwg.1, k (by decide) hbg.1, gt, k (by decide) htg.1, gm, gi, by simp⟩)
    hx.1.1 (by simp [LayerNorm.backwardTensors, layerNormExample]) x gamma beta dy x0 gamma0 beta0 f2 f3 (kh (by decide) hw.2) (kh (by decide) hyg.2)
    (kh (by decide) hxg.2) (kh (by decide) hwg.2) (kh (by decide) hbg.2)
  exact ⟨_, s', s'', t, t', gx, e1, e2, p1, p2, p3.holds f1 (by simp [layerNormExample]), q1, q4⟩

end NNTile
