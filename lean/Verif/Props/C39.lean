import Verif.Spec.Loss
import Verif.Lib.Layer
import Verif.Lib.Store
import Verif.Props.C09
import Verif.Props.C11
import Verif.Props.C11Axpy
import Verif.Props.C16
import Mathlib.Analysis.Calculus.Deriv.Pow
import Mathlib.Analysis.Calculus.Deriv.Add
import Mathlib.Analysis.Calculus.Deriv.Mul
import Mathlib.Tactic.FinCases
/-!
# C39: the Frobenius loss
-/
namespace NNTile
open Finset

/-- The gradient of `1/2 ‖X - Y‖²` is `X - Y`. -/
theorem C39_frob_gradient (S : List Nat) (Y X : List Nat → ℝ) : IsLossGrad S (frobLoss S Y) X (fun I => X I - Y I) := by
  intro c h h0 hc
  have hsum := (HasDerivAt.fun_sum (u := box S) fun I hI => ((hc I hI).sub_const (Y I)).fun_pow 2).const_mul (1 / 2 : ℝ)
  refine hsum.congr_deriv ?_
  rw [mul_sum, ← h0]
  refine sum_congr rfl fun I _ => ?_
  simp only [Nat.add_one_sub_one, pow_one, Nat.cast_ofNat]
  ring

/-- `Frob.calc_async` computes the value and the gradient of `1/2 ‖X - Y‖²`: `val` becomes the value and the gradient of `x` becomes `X - Y`, whatever the contents
of `val`, of that gradient and of the temporary tensors before. -/
theorem C39_frob {l : Frob} (fit : l.Fits) {s : Store ℝ} (hr : ∀ T ∈ l.toNet.tensors, T.Ready s) {X Y : List Nat → ℝ} (hX : l.x.value.Holds s X)
    (hY : l.y.Holds s Y) :
    Runs l.calcAsync s [l.val.id, l.x.grad.id, l.valSqrt.id, l.tmp.id] (fun s' =>
      l.val.Holds s' (fun _ => frobLoss l.x.value.shape Y X) ∧ l.x.grad.Holds s' (fun I => X I - Y I) ∧ ∀ T ∈ l.toNet.tensors, T.Ready s') := by
  set L : Fin 6 → Tensor := l.toNet.tensors.get with hL
  have inj : Function.Injective fun i => (L i).id := get_id_injective fit.ids
  have hne : ∀ i j, i ≠ j → (L i).id ≠ (L j).id := fun i j h e => h (inj e)
  have h0 : St L s (fun i => if i = 0 then some X else if i = 2 then some Y else none) := St.ofList hr _ (by
    intro i v hv
    change Fin 6 at i
    by_cases i0 : i = 0
    · subst i0; cases hv; exact hX
    by_cases i2 : i = 2
    · subst i2; cases hv; exact hY
    simp [i0, i2] at hv)
  have likeg : l.x.value.Like l.x.grad := ⟨hne 0 1 (by decide), fit.grad.1.symm, fit.grad.2.symm⟩
  have likey : l.y.Like l.x.grad := ⟨hne 2 1 (by decide), by rw [fit.y.1, fit.grad.1], by rw [fit.y.2, fit.grad.2]⟩
  have hb : ∀ T ∈ l.toNet.tensors, T.shape = [] → T.basetile = [] := fun T hT e => by
    have := (hr T hT).1.2.2
    rw [e] at this
    exact List.length_eq_zero_iff.1 this
  have likev : l.valSqrt.Like l.val := ⟨hne 4 3 (by decide), by rw [fit.val, fit.valSqrt],
    by rw [hb l.val (by simp [NetLoss.tensors, Frob.toNet]) fit.val, hb l.valSqrt (by simp [NetLoss.tensors, Frob.toNet]) fit.valSqrt]⟩
  rw [Frob.calcAsync]
  refine h0.step inj (i := 1) (C09_copy (h0.ready 0) (h0.ready 1) likeg X (h0.hold 0 _ rfl)) (by simp [L, NetLoss.tensors, Frob.toNet]) fun s1 h1 => ?_
  refine h1.step inj (i := 1) (C11_axpy_scalar (h1.ready 2) (h1.ready 1) likey (-1) Y X (h1.hold 2 _ rfl) (h1.hold 1 _ rfl))
    (by simp [L, NetLoss.tensors, Frob.toNet]) fun s2 h2 => ?_
  have hgrid : l.x.grad.grid = l.x.value.grid := by rw [Tensor.grid, fit.grad.1, fit.grad.2]; rfl
  obtain ⟨ts, s', e1, e2, e3, e4, e5, e6⟩ := C16_nrm2 (h2.ready 1) (h2.ready 4) (h2.ready 5) (hne 1 4 (by decide)) (hne 1 5 (by decide)) (hne 4 5 (by decide)) fit.valSqrt
    (by rw [show (L 1) = l.x.grad from rfl, hgrid]; exact fit.tmp.1) (by rw [show (L 1).ndim = l.x.value.ndim from congrArg List.length fit.grad.1]; exact fit.tmp.2) 1 0
    (fun I => -1 * Y I + X I) 0 (h2.hold 1 _ rfl) (by simp)
  set N : ℝ := Real.sqrt (∑ I ∈ box l.x.value.shape, (X I - Y I) ^ 2) with hN
  have eN : Real.sqrt ((0 * 0) ^ 2 + 1 ^ 2 * ∑ I ∈ box (L 1).shape, (-1 * Y I + X I) ^ 2) = N := by
    rw [hN, show (L 1).shape = l.x.value.shape from fit.grad.1]
    congr 1
    simp only [mul_zero, ne_eq, OfNat.ofNat_ne_zero, not_false_eq_true, zero_pow, one_pow, one_mul, zero_add]
    exact sum_congr rfl fun I _ => by ring
  rw [eN] at e3
  refine h2.stepRuns inj (K := [4, 5]) (Q := fun s' => (L 4).Holds s' (fun _ => N) ∧ (L 4).Ready s' ∧ (L 5).Ready s')
    (σ' := fun i => if i = 0 then some X else if i = 1 then some (fun I => -1 * Y I + X I) else if i = 2 then some Y else if i = 4 then some (fun _ => N) else none)
    ⟨ts, s', e1, e2, e4, e3, e5, e6⟩ ?_ ?_ (by simp [L, NetLoss.tensors, Frob.toNet]) fun s3 h3 => ?_
  · intro j hj v hv
    fin_cases j
    · exact hv
    · exact hv
    · exact hv
    · simp at hv
    · simp at hj
    · simp at hj
  · rintro s' ⟨q1, q2, q3⟩ j hj
    fin_cases hj
    · exact ⟨q2, fun v hv => by cases hv; exact q1⟩
    · exact ⟨q3, fun v hv => by cases hv⟩
  refine h3.step inj (i := 3) (C09_copy (h3.ready 4) (h3.ready 3) likev _ (h3.hold 4 _ rfl)) (by simp [L, NetLoss.tensors, Frob.toNet]) fun s4 h4 => ?_
  refine h4.step inj (i := 3) (C11_prod (h4.ready 4) (h4.ready 3) likev _ _ (h4.hold 4 _ rfl) (h4.hold 3 _ rfl)) (by simp [L, NetLoss.tensors, Frob.toNet]) fun s5 h5 => ?_
  refine h5.step inj (i := 3) (C11_scal_inplace (h5.ready 3) _ _ (h5.hold 3 _ rfl)) (by simp [L, NetLoss.tensors, Frob.toNet]) fun s6 h6 => ?_
  refine Runs.nil ⟨?_, ?_, ?_⟩
  · have := h6.hold 3 _ rfl
    have e : (FP.lit (1 / 2) : ℝ) * (N * N) = frobLoss l.x.value.shape Y X := by
      rw [frobLoss, hN, Real.mul_self_sqrt (sum_nonneg fun I _ => sq_nonneg _)]
      simp [FP.lit]
    intro I hI
    exact (this I hI).trans (congrArg some e)
  · have := h6.hold 1 _ rfl
    intro I hI
    exact (this I hI).trans (congrArg some (by ring))
  · intro T hT
    obtain ⟨i, hi, rfl⟩ := List.mem_iff_get.1 hT
    exact h6.ready i

/-- As a loss function of a network. -/
theorem C39_frob_correct {l : Frob} (fit : l.Fits) : l.toNet.Correct := by
  intro s X Y v hx hX hy hY _ hg hv _ ht
  have hr : ∀ T ∈ l.toNet.tensors, T.Ready s := by
    intro T hT
    simp only [NetLoss.tensors, List.mem_append, List.mem_cons, List.not_mem_nil, or_false] at hT
    rcases hT with (rfl | rfl | rfl | rfl) | hT
    · exact hx
    · exact hg
    · exact hy
    · exact hv
    · exact ht T hT
  refine (C39_frob fit hr hX hY).imp (by simp [Frob.toNet]) fun s' _ ⟨q1, q2, q3⟩ => ?_
  refine ⟨by simpa [Frob.toNet] using q1, q3 _ (by simp [NetLoss.tensors]), ⟨_, q2, C39_frob_gradient _ _ _⟩, q3 _ (by simp [NetLoss.tensors]),
    fun T hT => q3 T (by simp [NetLoss.tensors, hT])⟩

/-- `Frob.generate_simple` makes tensors which fit. -/
theorem C39_frob_generate {x : Moments} (hx : x.value.WF) (hg : x.grad.shape = x.value.shape ∧ x.grad.basetile = x.value.basetile) (hid : x.value.id ≠ x.grad.id)
    {next : Nat} (hn : x.value.id < next ∧ x.grad.id < next) :
    ∃ l, Frob.generate x next = .ok l ∧ l.x = x ∧ l.Fits ∧ ∀ T ∈ [l.y, l.val, l.valSqrt, l.tmp], T.WF ∧ next ≤ T.id ∧ T.id < next + 4 := by
  have hgp := x.value.grid_pos
  have hlen : x.value.grid.length = x.value.ndim := hx.grid_length
  have hrep : Pos (List.replicate x.value.grid.length 1) := by
    intro i hi
    rw [List.eq_of_mem_replicate hi]
    exact one_pos
  have ho : gridOf x.value.grid (List.replicate x.value.grid.length 1) = x.value.grid := (gridOf_ones _ _ hgp (by simp) (fun i hi => by
    rw [List.getD_eq_getElem?_getD, List.getElem?_replicate, if_pos hi]; rfl)).1
  refine ⟨⟨x, ⟨next, x.value.shape, x.value.basetile⟩, ⟨next + 1, [], []⟩, ⟨next + 2, [], []⟩, ⟨next + 3, x.value.grid, List.replicate x.value.grid.length 1⟩⟩, ?_, rfl, ?_, ?_⟩
  · unfold Frob.generate newTensorD
    have e1 : (⟨next, x.value.shape, x.value.basetile⟩ : Tensor).ntiles = x.value.ntiles := rfl
    have e2 : ∀ i, (⟨i, [], []⟩ : Tensor).ntiles = 1 := fun _ => rfl
    have e3 : (⟨next + 3, x.value.grid, List.replicate x.value.grid.length 1⟩ : Tensor).ntiles = x.value.ntiles := by
      rw [Tensor.ntiles, Tensor.grid]
      exact congrArg List.prod ho
    simp only [newTensor_ok hx, newTensor_ok (S := []) (B := []) ⟨by simp [Pos], by simp [Pos], rfl⟩, newTensor_ok ⟨hgp, hrep, List.length_replicate⟩, M.bind_ok, e1, e2, e3]
    simp [throwIf, M.bind_ok]
  · refine ⟨?_, hg, ⟨rfl, rfl⟩, rfl, rfl, rfl, ?_⟩
    · simp [NetLoss.tensors, Frob.toNet]
      omega
    · intro i hi
      have : i < x.value.grid.length := by rw [hlen]; exact hi
      show (List.replicate x.value.grid.length 1).getD i 0 = 1
      rw [List.getD_eq_getElem?_getD, List.getElem?_replicate, if_pos this]; rfl
  · simp only [List.forall_mem_cons, List.not_mem_nil, IsEmpty.forall_iff, implies_true, and_true]
    refine ⟨⟨hx, ?_⟩, ⟨⟨by simp [Pos], by simp [Pos], rfl⟩, ?_⟩, ⟨⟨by simp [Pos], by simp [Pos], rfl⟩, ?_⟩, ⟨⟨hgp, hrep, List.length_replicate⟩, ?_⟩⟩ <;> simp

/-- The hypotheses can be met: a `5×3` tensor in `2×2` tiles. -/
example (X Y : List Nat → ℝ) : ∃ (l : Frob) (s : Store ℝ), l.x.value.ntiles = 6 ∧ l.Fits ∧ (∀ T ∈ l.toNet.tensors, T.Ready s) ∧ l.x.value.Holds s X ∧ l.y.Holds s Y := by
  obtain ⟨l, -, h1, h2, h3⟩ := C39_frob_generate (x := ⟨⟨0, [5, 3], [2, 2]⟩, ⟨1, [5, 3], [2, 2]⟩, true⟩) (by decide) ⟨rfl, rfl⟩ (by decide) (next := 2) (by decide)
  have h := storeOf_spec [(l.x.value, X), (l.x.grad, X), (l.y, Y), (l.val, X), (l.valSqrt, X), (l.tmp, X)]
    (by
      simp only [List.forall_mem_cons, List.not_mem_nil, IsEmpty.forall_iff, implies_true, and_true] at h3 ⊢
      rw [h1]
      exact ⟨by decide, by decide, h3.1.1, h3.2.1.1, h3.2.2.1.1, h3.2.2.2.1⟩) (by simpa [NetLoss.tensors, Frob.toNet] using h2.ids)
  simp only [List.forall_mem_cons, List.not_mem_nil, IsEmpty.forall_iff, implies_true, and_true] at h
  refine ⟨l, _, by rw [h1]; rfl, h2, ?_, h.1.2, h.2.2.1.2⟩
  simp only [NetLoss.tensors, Frob.toNet, List.cons_append, List.nil_append, List.forall_mem_cons, List.not_mem_nil, IsEmpty.forall_iff, implies_true, and_true]
  exact ⟨h.1.1, h.2.1.1, h.2.2.1.1, h.2.2.2.1.1, h.2.2.2.2.1.1, h.2.2.2.2.2.1⟩

end NNTile
