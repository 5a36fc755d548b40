import Verif.Spec.Activations
import Verif.Props.C11
import Verif.Lib.Seq
import Mathlib.Analysis.SpecialFunctions.Trigonometric.Deriv
import Mathlib.Analysis.SpecialFunctions.ExpDeriv
import Mathlib.MeasureTheory.Integral.IntervalIntegral.FundThmCalculus
/-!
# C25: activation functions agree with their formulas and derivatives
-/
namespace NNTile
noncomputable section

/-! ### Real analysis -/

private theorem half_tanh (u : ℝ) : (1 + Real.tanh u) / 2 = 1 / (1 + Real.exp (-2 * u)) := by
  have h : Real.exp (-2 * u) = Real.exp (-u) / Real.exp u := by rw [← Real.exp_sub]; ring_nf
  have h1 := Real.exp_pos u
  have h2 := Real.exp_pos (-u)
  rw [Real.tanh_eq_sinh_div_cosh, Real.sinh_eq, Real.cosh_eq, h]
  field_simp
  ring

private theorem gt_consts : (gtF3 : ℝ) = -2 * Real.sqrt (2 / Real.pi) ∧ (gtF4 : ℝ) = -2 * Real.sqrt (2 / Real.pi) * 0.044715 ∧
    (gtF5 : ℝ) = 3 * (-2 * Real.sqrt (2 / Real.pi) * 0.044715) := by
  have e : (gtF2 : ℝ) = Real.sqrt (2 / Real.pi) := by
    simp only [gtF2, lit_real, sqrt_real, pi_real]
    rw [Real.sqrt_div (by norm_num)]
    norm_num
  refine ⟨?_, ?_, ?_⟩
  · simp only [gtF3, e, lit_real]; norm_num
  · simp only [gtF4, gtF3, e, lit_real]; norm_num
  · simp only [gtF5, gtF4, gtF3, e, lit_real]; norm_num

/-- The exponent. -/
private def gtY (z : ℝ) : ℝ := z * ((gtF3 : ℝ) + gtF4 * (z * z))

private theorem geluTanhSpec_eq (z : ℝ) : geluTanhSpec z = z / (1 + Real.exp (gtY z)) := by
  have : geluTanhSpec z = z * ((1 + Real.tanh (Real.sqrt (2 / Real.pi) * (z + 0.044715 * z ^ 3))) / 2) := by
    rw [geluTanhSpec]; ring
  rw [this, half_tanh, mul_one_div]
  congr 3
  obtain ⟨a, b, -⟩ := gt_consts
  rw [gtY, a, b]
  ring

private theorem geluTanh_deriv (z : ℝ) : HasDerivAt geluTanhSpec (dgelutanhFormula z) z := by
  have hy : HasDerivAt gtY ((gtF3 : ℝ) + gtF5 * (z * z)) z := by
    have h1 : HasDerivAt (fun z : ℝ => z * ((gtF3 : ℝ) + gtF4 * (z * z))) (1 * ((gtF3 : ℝ) + gtF4 * (z * z)) + z * (gtF4 * (1 * z + z * 1))) z :=
      (hasDerivAt_id' z).mul ((((hasDerivAt_id' z).mul (hasDerivAt_id' z)).const_mul _).const_add _)
    refine h1.congr_deriv ?_
    simp only [gtF5, lit_real]
    push_cast
    ring
  have hp : 0 < 1 + Real.exp (gtY z) := by have := Real.exp_pos (gtY z); linarith
  have hf : HasDerivAt (fun z => z / (1 + Real.exp (gtY z))) _ z := (hasDerivAt_id' z).div ((hy.exp).const_add 1) hp.ne'
  have e : geluTanhSpec = fun z => z / (1 + Real.exp (gtY z)) := funext geluTanhSpec_eq
  rw [e]
  refine hf.congr_deriv ?_
  have hexp : Real.exp (z * ((gtF3 : ℝ) + gtF4 * (z * z))) = Real.exp (gtY z) := rfl
  have hp' : Real.exp (gtY z) + 1 ≠ 0 := by rw [add_comm]; exact hp.ne'
  simp only [dgelutanhFormula, isInf_real, exp_real, Bool.false_eq_true, if_false]
  rw [hexp]
  field_simp
  ring

/-- The derivative of the tanh approximation exists everywhere, so that `deriv` below is the derivative. -/
theorem C25_gelutanh_differentiable : Differentiable ℝ geluTanhSpec := fun z => (geluTanh_deriv z).differentiableAt

private theorem geluSpec_eq (z : ℝ) : geluSpec z = (1/2 * z) * realErfc (-1 / Real.sqrt 2 * z) := by
  have h : ∀ x : ℝ, (∫ t in (0:ℝ)..(-x), Real.exp (-t ^ 2)) = - ∫ t in (0:ℝ)..x, Real.exp (-t ^ 2) := by
    intro x
    have := intervalIntegral.integral_comp_neg (a := 0) (b := x) (fun t => Real.exp (-t ^ 2))
    simp only [neg_sq, neg_zero] at this
    rw [this, ← intervalIntegral.integral_symm]
  have e : -1 / Real.sqrt 2 * z = -(z / Real.sqrt 2) := by ring
  rw [geluSpec, erfSpec, realErfc, e, h]
  ring

private theorem erfc_deriv (x : ℝ) : HasDerivAt realErfc (-(2 / Real.sqrt Real.pi * Real.exp (-x ^ 2))) x := by
  have hc : Continuous (fun t : ℝ => Real.exp (-t ^ 2)) := by fun_prop
  have h1 : HasDerivAt (fun x => ∫ t in (0:ℝ)..x, Real.exp (-t ^ 2)) (Real.exp (-x ^ 2)) x :=
    intervalIntegral.integral_hasDerivAt_right (hc.intervalIntegrable _ _) (hc.stronglyMeasurableAtFilter _ _) hc.continuousAt
  exact (h1.const_mul _).const_sub 1

private theorem gelu_deriv (z : ℝ) : HasDerivAt geluSpec
    (z * (1 / Real.sqrt (2 * Real.pi)) * Real.exp (-(1/2) * z * z) + 1/2 * realErfc (-1 / Real.sqrt 2 * z)) z := by
  have e : geluSpec = fun z => (1/2 * z) * realErfc (-1 / Real.sqrt 2 * z) := funext geluSpec_eq
  rw [e]
  have hi : HasDerivAt (fun z : ℝ => -1 / Real.sqrt 2 * z) (-1 / Real.sqrt 2 * 1) z := (hasDerivAt_id' z).const_mul _
  have h1 : HasDerivAt (fun z => realErfc (-1 / Real.sqrt 2 * z)) _ z := (erfc_deriv (-1 / Real.sqrt 2 * z)).comp z hi
  have h2 : HasDerivAt (fun z : ℝ => 1/2 * z) (1/2 * 1) z := (hasDerivAt_id' z).const_mul _
  refine (h2.mul h1).congr_deriv ?_
  have s2 : Real.sqrt 2 ^ 2 = 2 := Real.sq_sqrt (by norm_num)
  have hs2 : Real.sqrt 2 ≠ 0 := by positivity
  have hsp : Real.sqrt Real.pi ≠ 0 := by have := Real.pi_pos; positivity
  have e1 : -(-1 / Real.sqrt 2 * z) ^ 2 = -(1/2) * z * z := by
    rw [mul_pow, div_pow, s2]; ring
  rw [e1, Real.sqrt_mul (by norm_num)]
  field_simp
  ring

/-- The derivative of GELU exists everywhere. -/
theorem C25_gelu_differentiable : Differentiable ℝ geluSpec := fun z => (gelu_deriv z).differentiableAt

private theorem relu_deriv {z : ℝ} (hz : z ≠ 0) : HasDerivAt reluSpec (if 0 < z then 1 else 0) z := by
  rcases lt_or_gt_of_ne hz with h | h
  · rw [if_neg (by linarith)]
    refine (hasDerivAt_const z (0:ℝ)).congr_of_eventuallyEq ?_
    filter_upwards [Iio_mem_nhds h] with y hy
    exact max_eq_right (le_of_lt hy)
  · rw [if_pos h]
    refine (hasDerivAt_id' z).congr_of_eventuallyEq ?_
    filter_upwards [Ioi_mem_nhds h] with y hy
    exact max_eq_left (le_of_lt hy)

/-- ReLU is differentiable except at its kink. -/
theorem C25_relu_differentiable {z : ℝ} (hz : z ≠ 0) : DifferentiableAt ℝ reluSpec z := (relu_deriv hz).differentiableAt

/-! ### The operations -/

section
variable {src dst x dy dx A : Tensor} {s : Store ℝ}

/-- `gelutanh` computes the tanh approximation of GELU. -/
theorem C25_gelutanh (hs : src.Ready s) (hd : dst.Ready s) (hlike : src.Like dst) (v : List Nat → ℝ) (hv : src.Holds s v) :
    Computes (gelutanhAsync src dst) s dst (fun I => geluTanhSpec (v I)) := by
  refine (C11_gelutanh hs hd hlike v hv).congr (fun I _ => ?_)
  rw [geluTanhSpec_eq]
  simp only [gelutanhFormula, exp_real]
  rw [← Real.exp_add, gtY]
  congr 3
  ring

/-- `gelutanh_inplace` computes the same function. -/
theorem C25_gelutanh_inplace (hA : A.Ready s) (v : List Nat → ℝ) (hv : A.Holds s v) :
    Computes (gelutanhInplaceAsync A) s A (fun I => geluTanhSpec (v I)) := by
  refine (C11_gelutanh_inplace hA v hv).congr (fun I _ => ?_)
  rw [geluTanhSpec_eq, gtY]
  simp only [exp_real]
  congr 3
  ring

/-- `dgelutanh` computes its derivative. -/
theorem C25_dgelutanh (hA : A.Ready s) (v : List Nat → ℝ) (hv : A.Holds s v) :
    Computes (dgelutanhAsync A) s A (fun I => deriv geluTanhSpec (v I)) :=
  (C11_dgelutanh hA v hv).congr (fun I _ => (geluTanh_deriv (v I)).deriv.symm)

/-- `gelutanh_backward` adds the derivative times `dy`. -/
theorem C25_gelutanh_backward (hx : x.Ready s) (hdy : dy.Ready s) (hdx : dx.Ready s) (hxl : x.Like dx) (hdyl : dy.Like dx)
    (vx vdy vdx : List Nat → ℝ) (hvx : x.Holds s vx) (hvdy : dy.Holds s vdy) (hvdx : dx.Holds s vdx) :
    Computes (gelutanhBackwardAsync x dy dx) s dx (fun I => vdx I + deriv geluTanhSpec (vx I) * vdy I) := by
  refine (C11_gelutanh_backward hx hdy hdx hxl hdyl vx vdy vdx hvx hvdy hvdx).congr (fun I _ => ?_)
  rw [(geluTanh_deriv (vx I)).deriv]
  simp

/-- `gelu` computes GELU. -/
theorem C25_gelu (hA : A.Ready s) (v : List Nat → ℝ) (hv : A.Holds s v) : Computes (geluAsync A) s A (fun I => geluSpec (v I)) := by
  refine (C11_gelu hA v hv).congr (fun I _ => ?_)
  rw [geluSpec_eq]
  simp only [lit_real, sqrt_real, erfc_real]
  norm_num

private theorem gelu_deriv' (z : ℝ) : z * (1 / FP.sqrt (FP.lit 2 * FP.pi)) * FP.exp (-FP.lit (1/2) * z * z)
    + FP.lit (1/2) * FP.erfc (-1 / FP.sqrt (FP.lit 2) * z) = deriv geluSpec z := by
  rw [(gelu_deriv z).deriv]
  simp only [lit_real, sqrt_real, erfc_real, exp_real, pi_real]
  norm_num

/-- `dgelu` computes the derivative of GELU. -/
theorem C25_dgelu (hA : A.Ready s) (v : List Nat → ℝ) (hv : A.Holds s v) : Computes (dgeluAsync A) s A (fun I => deriv geluSpec (v I)) :=
  (C11_dgelu hA v hv).congr (fun I _ => gelu_deriv' (v I))

/-- `gelu_backward` adds the derivative times `dy`. -/
theorem C25_gelu_backward (hx : x.Ready s) (hdy : dy.Ready s) (hdx : dx.Ready s) (hxl : x.Like dx) (hdyl : dy.Like dx)
    (vx vdy vdx : List Nat → ℝ) (hvx : x.Holds s vx) (hvdy : dy.Holds s vdy) (hvdx : dx.Holds s vdx) :
    Computes (geluBackwardAsync x dy dx) s dx (fun I => vdx I + deriv geluSpec (vx I) * vdy I) := by
  refine (C11_gelu_backward hx hdy hdx hxl hdyl vx vdy vdx hvx hvdy hvdx).congr (fun I _ => ?_)
  rw [← gelu_deriv']

/-- `relu` and `relu_forward`. -/
theorem C25_relu (hA : A.Ready s) (v : List Nat → ℝ) (hv : A.Holds s v) : Computes (reluAsync A) s A (fun I => reluSpec (v I)) :=
  (C11_relu hA v hv).congr (fun _ _ => rfl)

theorem C25_relu_forward (hs : src.Ready s) (hd : dst.Ready s) (hlike : src.Like dst) (v : List Nat → ℝ) (hv : src.Holds s v) :
    Computes (reluForwardAsync src dst) s dst (fun I => reluSpec (v I)) :=
  (C11_relu_forward hs hd hlike v hv).congr (fun _ _ => rfl)

/-- `drelu` computes the derivative of ReLU at inputs different from zero; at zero it gives `0`. -/
theorem C25_drelu (hA : A.Ready s) (v : List Nat → ℝ) (hv : A.Holds s v) :
    Computes (dreluAsync A) s A (fun I => if v I = 0 then 0 else deriv reluSpec (v I)) := by
  refine (C11_drelu hA v hv).congr (fun I _ => ?_)
  by_cases h : v I = 0
  · simp [h]
  · simp [h, (relu_deriv h).deriv]

/-- `relu_backward` adds the derivative times `dy`, at zero it adds nothing. -/
theorem C25_relu_backward (hx : x.Ready s) (hdy : dy.Ready s) (hdx : dx.Ready s) (hxl : x.Like dx) (hdyl : dy.Like dx)
    (vx vdy vdx : List Nat → ℝ) (hvx : x.Holds s vx) (hvdy : dy.Holds s vdy) (hvdx : dx.Holds s vdx) :
    Computes (reluBackwardAsync x dy dx) s dx (fun I => vdx I + (if vx I = 0 then 0 else deriv reluSpec (vx I)) * vdy I) := by
  refine (C11_relu_backward hx hdy hdx hxl hdyl vx vdy vdx hvx hvdy hvdx).congr (fun I _ => ?_)
  by_cases h : vx I = 0
  · simp [h]
  · simp only [h, if_false, (relu_deriv h).deriv, ltb_real]
    split <;> simp

end

/-- The hypotheses are met by `5×7` tensors in `2×3` tiles. -/
example : ∃ (x dy dx : Tensor) (s : Store ℝ) (vx vdy vdx : List Nat → ℝ), x.ntiles = 9 ∧ x.Ready s ∧ dy.Ready s ∧ dx.Ready s ∧ x.Like dx ∧ dy.Like dx ∧
    x.Holds s vx ∧ dy.Holds s vdy ∧ dx.Holds s vdx ∧ vx [0, 0] ≠ 0 ∧ vx ≠ vdy := by
  refine ⟨⟨0, [5,7], [2,3]⟩, ⟨1, [5,7], [2,3]⟩, ⟨2, [5,7], [2,3]⟩,
    fun h => ⟨((⟨1, [5,7], [2,3]⟩ : Tensor).tshapeL h.2).prod, fun _ => some (h.1 + 7 : ℝ)⟩,
    fun _ => 7, fun _ => 8, fun _ => 9, rfl, ⟨by decide, fun _ _ => rfl⟩, ⟨by decide, fun _ _ => rfl⟩, ⟨by decide, fun _ _ => rfl⟩,
    ⟨by decide, rfl, rfl⟩, ⟨by decide, rfl, rfl⟩, fun I _ => ?_, fun I _ => ?_, fun I _ => ?_, by norm_num, ?_⟩
  · simp [Tensor.get, Tensor.hOf]
  · simp [Tensor.get, Tensor.hOf]; norm_num
  · simp [Tensor.get, Tensor.hOf]; norm_num
  · intro h
    have := congrFun h []
    norm_num at this

/-- The specification functions are the usual ones and not trivial. -/
example : geluTanhSpec 0 = 0 ∧ reluSpec (-3) = 0 ∧ reluSpec 3 = 3 ∧ deriv geluTanhSpec 0 = 1/2 ∧ deriv geluSpec 0 = 1/2 := by
  refine ⟨by simp [geluTanhSpec], by norm_num [reluSpec], by norm_num [reluSpec], ?_, ?_⟩
  · rw [(geluTanh_deriv 0).deriv]
    simp [dgelutanhFormula]
    norm_num
  · rw [(gelu_deriv 0).deriv]
    simp [realErfc]

end
end NNTile
