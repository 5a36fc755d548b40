import Verif.Props.C73
import Verif.Lib.Fp16
import Mathlib.Data.Real.Basic
/-!
# C74: the layers of conversion between single and half precision
-/
namespace NNTile
variable {α : Type}

/-- The tensor is a `Tensor_fp32` or `Tensor_fp16`, constructed and registered. -/
def TypedTensor.Is (T : TypedTensor) (d : DType) (s : Store α) : Prop := T.dtype = d ∧ T.t.Ready s

/-- `FP32_to_FP16.generate_simple` creates an output and its gradient, of half precision, of the shape and tiling of the input. -/
theorem C74_generate {x : TypedMoments} (hx : x.value.t.WF) (next : Nat) : ∃ l : Fp32ToFp16Layer, Fp32ToFp16Layer.generate x next = .ok l ∧ l.x = x ∧
    l.y.value = ⟨.fp16, next, x.value.t.shape, x.value.t.basetile⟩ ∧ l.y.grad = some ⟨.fp16, next + 1, x.value.t.shape, x.value.t.basetile⟩ ∧ l.y.gradRequired = true := by
  refine ⟨⟨x, ⟨⟨.fp16, next, x.value.t.shape, x.value.t.basetile⟩, some ⟨.fp16, next + 1, x.value.t.shape, x.value.t.basetile⟩, true⟩⟩, ?_, rfl, rfl, rfl, rfl⟩
  unfold Fp32ToFp16Layer.generate
  rw [newTensor_ok hx, M.bind_ok, newTensor_ok hx, M.bind_ok]

/-- The forward method of a layer made by `FP32_to_FP16.generate_simple` for an input of single precision converts the input. -/
theorem C74_forward {x : TypedMoments} {next : Nat} {l : Fp32ToFp16Layer} (hl : Fp32ToFp16Layer.generate x next = .ok l) (hid : x.value.t.id ≠ next) (c : HalfConv α) {s : Store α}
    (hx : x.value.Is .fp32 s) (hy : l.y.value.t.Ready s) (v : List Nat → α) (hv : x.value.t.Holds s v) :
    Computes (l.forwardAsync true c) s l.y.value.t (fun I => c.float2half (v I)) := by
  obtain ⟨l', e, h1, h2, -, -⟩ := C74_generate hx.2.1 next
  obtain rfl : l = l' := Except.ok.inj (hl.symm.trans e)
  unfold Fp32ToFp16Layer.forwardAsync pyFp32ToFp16
  dsimp only
  rw [throwIf_neg (by simp [h1, h2, hx.1]), M.bind_ok, h1]
  exact C73_fp32_to_fp16 c hx.2 hy (by rw [h2]; exact ⟨hid, rfl, rfl⟩) v hv

/-- Full property: backward adds the converted gradient of the output to the gradient of the input, `g0 + half2float(dy)`, if that gradient is required, and does nothing otherwise. Proved: this is so if
the gradient of the input was zero. Missing: see `C74_backward_refuted` and `C74_not_required_refuted`. -/
theorem C74_backward_partial {x : TypedMoments} {next : Nat} {l : Fp32ToFp16Layer} (hl : Fp32ToFp16Layer.generate x next = .ok l) (hx : x.value.t.WF) (c : HalfConv ℝ) {s : Store ℝ}
    {g dY : TypedTensor} (hg : x.grad = some g) (hd : l.y.grad = some dY) (hid : g.t.id ≠ next + 1) (hgs : g.Is .fp32 s) (hlike : g.t.shape = x.value.t.shape ∧ g.t.basetile = x.value.t.basetile)
    (hy : dY.t.Ready s) (dy g0 : List Nat → ℝ) (hdy : dY.t.Holds s dy) (h0 : ∀ I, g0 I = 0) :
    Computes (l.backwardAsync true c) s g.t (fun I => g0 I + c.half2float (dy I)) := by
  obtain ⟨l', e, h1, -, h2, -⟩ := C74_generate hx next
  obtain rfl : l = l' := Except.ok.inj (hl.symm.trans e)
  obtain rfl : _ = dY := Option.some.inj (h2.symm.trans hd)
  unfold Fp32ToFp16Layer.backwardAsync pyFp16ToFp32
  rw [hd, h1, hg]
  dsimp only
  rw [throwIf_neg (by simp [hgs.1]), M.bind_ok]
  simp only [h0, zero_add]
  exact C73_fp16_to_fp32 c hy hgs.2 ⟨fun e => hid e.symm, hlike.1.symm, hlike.2.symm⟩ dy hdy

/-- The gradient of the input is overwritten instead: what other layers have added before is lost. -/
theorem C74_backward_refuted {x : TypedMoments} {next : Nat} {l : Fp32ToFp16Layer} (hl : Fp32ToFp16Layer.generate x next = .ok l) (hx : x.value.t.WF) (c : HalfConv ℝ) {s : Store ℝ}
    {g dY : TypedTensor} (hg : x.grad = some g) (hd : l.y.grad = some dY) (hid : g.t.id ≠ next + 1) (hgs : g.Is .fp32 s) (hlike : g.t.shape = x.value.t.shape ∧ g.t.basetile = x.value.t.basetile)
    (hy : dY.t.Ready s) (dy g0 : List Nat → ℝ) (hdy : dY.t.Holds s dy) (I : List Nat) (hI : InBox g.t.shape I) (h0 : g0 I ≠ 0) :
    ¬ Computes (l.backwardAsync true c) s g.t (fun I => g0 I + c.half2float (dy I)) := by
  intro h
  obtain ⟨ts, s1, e1, r1, v1, -⟩ := h
  obtain ⟨ts', s2, e2, r2, v2, -⟩ := C74_backward_partial hl hx c hg hd hid hgs hlike hy dy (fun _ => 0) hdy (fun _ => rfl)
  obtain rfl : ts = ts' := Except.ok.inj (e1.symm.trans e2)
  obtain rfl : s1 = s2 := Except.ok.inj (r1.symm.trans r2)
  have := Option.some.inj ((v1 I hI).symm.trans (v2 I hI))
  apply h0
  linarith

/-- Without a gradient (`None`, not required) the backward method raises `TypeError` instead of doing nothing. -/
theorem C74_not_required_refuted {l : Fp32ToFp16Layer} (cuda : Bool) (c : HalfConv α) (hg : l.x.grad = none) : Throws (l.backwardAsync cuda c) := by
  unfold Fp32ToFp16Layer.backwardAsync pyFp16ToFp32
  rw [hg]
  cases l.y.grad <;> exact ⟨_, rfl⟩

/-- A layer made by `FP16_to_FP32.generate_simple` can never be used: its output is of half precision as well, so that forward and backward raise `TypeError`. -/
theorem C74_fp16_to_fp32_refuted {x : TypedMoments} {next : Nat} {l : Fp16ToFp32Layer} (hl : Fp16ToFp32Layer.generate x next = .ok l) (cuda : Bool) (c : HalfConv α) :
    Throws (l.forwardAsync cuda c) ∧ Throws (l.backwardAsync cuda c) := by
  unfold Fp16ToFp32Layer.generate at hl
  obtain ⟨a, -, hl⟩ := M.bind_eq_ok.1 hl
  obtain ⟨b, -, hl⟩ := M.bind_eq_ok.1 hl
  obtain rfl := Except.ok.inj hl
  constructor
  · unfold Fp16ToFp32Layer.forwardAsync pyFp16ToFp32
    dsimp only
    rw [throwIf_pos (by simp)]
    exact ⟨_, rfl⟩
  · unfold Fp16ToFp32Layer.backwardAsync pyFp32ToFp16
    dsimp only
    cases x.grad with
    | none => exact ⟨_, rfl⟩
    | some g =>
      dsimp only
      rw [throwIf_pos (by simp)]
      exact ⟨_, rfl⟩

/-- If the constructor is called with a proper output instead, `FP16_to_FP32` converts its input. -/
theorem C74_fp16_to_fp32_partial {l : Fp16ToFp32Layer} (c : HalfConv α) {s : Store α} (hx : l.x.value.Is .fp16 s) (hy : l.y.value.Is .fp32 s) (hlike : l.x.value.t.Like l.y.value.t)
    (v : List Nat → α) (hv : l.x.value.t.Holds s v) : Computes (l.forwardAsync true c) s l.y.value.t (fun I => c.half2float (v I)) := by
  unfold Fp16ToFp32Layer.forwardAsync pyFp16ToFp32
  dsimp only
  rw [throwIf_neg (by simp [hx.1, hy.1]), M.bind_ok]
  exact C73_fp16_to_fp32 c hx.2 hy.2 hlike v hv

/-! ### Examples -/

/-- An input of 3 by 5 elements in tiles of 2 by 2 (tensor 0) with gradient (tensor 3). -/
def convX (d : DType) : TypedMoments := ⟨⟨d, ⟨0, [3, 5], [2, 2]⟩⟩, some ⟨d, ⟨3, [3, 5], [2, 2]⟩⟩, true⟩

/-- All tensors are registered and full of ones. -/
noncomputable def convOnes : Store ℝ := fun h => ⟨((⟨h.1, [3, 5], [2, 2]⟩ : Tensor).tshapeL h.2).prod, fun _ => some 1⟩

example : ∃ l, Fp32ToFp16Layer.generate (convX .fp32) 5 = .ok l ∧
    Computes (l.forwardAsync true (⟨fun x => x / 2, id⟩ : HalfConv ℝ)) convOnes l.y.value.t (fun _ => 1 / 2) := by
  obtain ⟨l, e, -, h, -, -⟩ := C74_generate (x := convX .fp32) (by decide) 5
  refine ⟨l, e, C74_forward e (by decide) ⟨fun x => x / 2, id⟩ ⟨rfl, by decide, fun _ _ => rfl⟩ (by rw [h]; exact ⟨by decide, fun _ _ => rfl⟩) (fun _ => 1) (fun _ _ => rfl)⟩

/-- The gradient of ones becomes one instead of two. -/
example : ∃ l, Fp32ToFp16Layer.generate (convX .fp32) 5 = .ok l ∧
    Computes (l.backwardAsync true (⟨id, id⟩ : HalfConv ℝ)) convOnes ⟨3, [3, 5], [2, 2]⟩ (fun _ => 0 + 1) ∧
    ¬ Computes (l.backwardAsync true (⟨id, id⟩ : HalfConv ℝ)) convOnes ⟨3, [3, 5], [2, 2]⟩ (fun _ => 1 + 1) := by
  obtain ⟨l, e, -, -, h, -⟩ := C74_generate (x := convX .fp32) (by decide) 5
  exact ⟨l, e,
    C74_backward_partial e (by decide) ⟨id, id⟩ (g := ⟨.fp32, ⟨3, [3, 5], [2, 2]⟩⟩) rfl h (by decide) ⟨rfl, by decide, fun _ _ => rfl⟩ ⟨rfl, rfl⟩ ⟨by decide, fun _ _ => rfl⟩ (fun _ => 1) (fun _ => 0)
      (fun _ _ => rfl) (fun _ => rfl),
    C74_backward_refuted e (by decide) ⟨id, id⟩ (g := ⟨.fp32, ⟨3, [3, 5], [2, 2]⟩⟩) rfl h (by decide) ⟨rfl, by decide, fun _ _ => rfl⟩ ⟨rfl, rfl⟩ ⟨by decide, fun _ _ => rfl⟩ (fun _ => 1) (fun _ => 1)
      (fun _ _ => rfl) [0, 0] (by decide) one_ne_zero⟩

example : ∃ l, Fp16ToFp32Layer.generate (convX .fp16) 5 = .ok l := ⟨_, rfl⟩

/-- **Types.** The conversions of Python raise an exception unless they get two tensors, of the types in their names, in this order. -/
theorem C74_types {α : Type} {cuda : Bool} {c : HalfConv α} {src dst : Option TypedTensor} :
    ((¬ ∃ a b, src = some a ∧ dst = some b ∧ a.dtype = .fp32 ∧ b.dtype = .fp16) → Throws (pyFp32ToFp16 cuda c src dst)) ∧
    ((¬ ∃ a b, src = some a ∧ dst = some b ∧ a.dtype = .fp16 ∧ b.dtype = .fp32) → Throws (pyFp16ToFp32 cuda c src dst)) := by
  cases src with
  | none => exact ⟨fun _ => ⟨_, rfl⟩, fun _ => ⟨_, rfl⟩⟩
  | some a =>
    cases dst with
    | none => exact ⟨fun _ => ⟨_, rfl⟩, fun _ => ⟨_, rfl⟩⟩
    | some b =>
      refine ⟨fun h => throws_pos ?_, fun h => throws_pos ?_⟩ <;>
      · by_contra hc
        rw [not_or, not_not, not_not] at hc
        exact h ⟨a, b, rfl, rfl, hc.1, hc.2⟩

example {α : Type} {c : HalfConv α} (t : Tensor) : Throws (pyFp32ToFp16 true c (some ⟨.fp32, t⟩) (some ⟨.fp32, t⟩)) ∧ Throws (pyFp16ToFp32 true c (some ⟨.fp16, t⟩) none) :=
  ⟨C74_types.1 (by rintro ⟨_, _, h1, h2, h3, h4⟩; cases h1; cases h2; cases h4), C74_types.2 (by rintro ⟨_, _, _, h2, _⟩; cases h2)⟩

end NNTile
