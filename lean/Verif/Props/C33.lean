import Verif.Lib.LinearGrad
import Verif.Lib.Store
/-!
# C33 — the linear layer computes its matrix product and its exact gradients
-/
namespace NNTile
open Finset

/-- Forward propagation: `y = op(x)*w + b` (`side = 'L'`) or `y = w*op(x) + b` (`side = 'R'`), for all shapes, tilings and both values of `trans_x`; the old
contents of `y` do not matter and nothing else is changed. -/
theorem C33_linear_forward {l : Linear} {M K N : List Nat} (fit : l.Fits M K N) {s : Store ℝ} (hx : l.x.value.Ready s) (hw : l.w.value.Ready s)
    (hy : l.y.value.Ready s) (hb : ∀ b ∈ l.b, b.value.Ready s ∧ b.value.id ≠ l.y.value.id)
    (idx : l.x.value.id ≠ l.y.value.id) (idw : l.w.value.id ≠ l.y.value.id) (x w b : List Nat → ℝ) (vx : l.x.value.Holds s x)
    (vw : l.w.value.Holds s w) (vb : ∀ m ∈ l.b, m.value.Holds s b) :
    Computes l.forwardAsync s l.y.value (linearOut l.side l.transX M.length K x w (if l.b.isSome then b else 0)) := by
  obtain ⟨M', K', N', hK, ht, hbt⟩ := fit.tile
  have hsh := fit.shape
  have hfb := fit.bias
  have hnd := fit.ndim
  obtain ⟨side, tx, ⟨x_, xg, xr⟩, ⟨y_, yg, yr⟩, ⟨w_, wg, wr⟩, nd, bo, redux⟩ := l
  simp only at *
  cases side with
  | L =>
    obtain ⟨sx, sw, sy⟩ := hsh
    obtain ⟨bx, bw, by_⟩ := ht
    have hg := gemm_nobatch (tA := tx) (tB := .noTrans) hx hw hy idx idw hnd sx (by simpa using sw) sy
      ⟨M', K', N', hK, bx, by simpa using bw, by_⟩ 1 0 redux x w (fun _ => 0) vx vw (by simp)
    simp only [Linear.forwardAsync]
    refine hg.then fun s1 hc hv hr => ?_
    cases bo with
    | none =>
      refine (Computes.skip hv hr).then fun s2 _ hv hr => (Computes.nil hv hr).congr fun Z _ => ?_
      simp [linearOut]
    | some b_ =>
      obtain ⟨hN, hbs, -⟩ := hfb b_ rfl
      obtain ⟨hbb, -⟩ := hbt b_ rfl
      obtain ⟨hbr, hbi⟩ := hb b_ rfl
      obtain ⟨n, rfl⟩ := List.length_eq_one_iff.1 hN
      have hN' : N'.length = 1 := by
        have := hbr.1.2.2
        rw [hbb, hbs] at this
        simpa [Side.biasDim] using this
      obtain ⟨n', rfl⟩ := List.length_eq_one_iff.1 hN'
      have hM' : M'.length = M.length := by
        have := hy.1.2.2
        rw [by_, sy] at this
        simpa using this
      have hf : b_.value.FiberOf y_ M.length 0 := bias_fiber_last sy by_ hM' hbs hbb
      have e : ((y_.ndim : Int) - 1) = (M.length : Int) := by simp [Tensor.ndim, sy]
      have := C13_add_fiber_partial (hc.ready hbr (by simpa using hbi)) hr hbi hf 1 1 (by simp) b _ (hc.holds (vb b_ rfl) (by simpa using hbi)) (fun _ => hv)
      rw [e]
      refine this.then fun s2 _ hv hr => (Computes.nil hv hr).congr fun Z hZ => ?_
      have hZl := hZ.length
      simp only [sy, List.length_append, List.length_singleton] at hZl
      have e1 : fiberIdx M.length 0 Z = Z.drop M.length := by
        rw [fiberIdx, List.drop_eq_getElem_cons (show M.length < Z.length by omega)]
        simp [hZl, List.getD_eq_getElem?_getD]
      simp [linearOut, e1]
  | R =>
    obtain ⟨sw, sx, sy⟩ := hsh
    obtain ⟨bw, bx, by_⟩ := ht
    have hg := gemm_nobatch (tA := .noTrans) (tB := tx) hw hx hy idw idx hnd (by simpa using sw) sx sy
      ⟨M', K', N', hK, by simpa using bw, bx, by_⟩ 1 0 redux w x (fun _ => 0) vw vx (by simp)
    simp only [Linear.forwardAsync]
    refine hg.then fun s1 hc hv hr => ?_
    cases bo with
    | none =>
      refine (Computes.skip hv hr).then fun s2 _ hv hr => (Computes.nil hv hr).congr fun Z _ => ?_
      simp [linearOut]
    | some b_ =>
      obtain ⟨hN, hbs, -⟩ := hfb b_ rfl
      obtain ⟨hbb, -⟩ := hbt b_ rfl
      obtain ⟨hbr, hbi⟩ := hb b_ rfl
      obtain ⟨n, rfl⟩ := List.length_eq_one_iff.1 hN
      have hN' : M'.length = 1 := by
        have := hbr.1.2.2
        rw [hbb, hbs] at this
        simpa [Side.biasDim] using this
      obtain ⟨n', rfl⟩ := List.length_eq_one_iff.1 hN'
      have hM' : N'.length = N.length := by
        have := hy.1.2.2
        rw [by_, sy] at this
        simpa using this
      have hf : b_.value.FiberOf y_ 0 0 := bias_fiber_first sy by_ hM' hbs hbb
      have := C13_add_fiber_partial (hc.ready hbr (by simpa using hbi)) hr hbi hf 1 1 (by simp) b _ (hc.holds (vb b_ rfl) (by simpa using hbi)) (fun _ => hv)
      refine this.then fun s2 _ hv hr => (Computes.nil hv hr).congr fun Z hZ => ?_
      have hZl := hZ.length
      simp only [sy, List.length_append, List.length_singleton] at hZl
      have e1 : fiberIdx 0 0 Z = Z.take 1 := by
        cases Z with
        | nil => simp only [List.length_nil] at hZl; omega
        | cons z Z => simp [fiberIdx]
      simp [linearOut, e1]

/-- Backward propagation: to each required gradient (of `x`, `w`, `b`) the layer adds the gradient of `⟨dy, y⟩` with respect to that operand, where `y` is the
function computed by `C33_linear_forward` and `dy` the gradient received in `y.grad`. Nothing but the required gradients is changed. -/
theorem C33_linear_backward {l : Linear} {M K N : List Nat} (fit : l.Fits M K N) {s : Store ℝ} (hx : l.x.value.Ready s) (hw : l.w.value.Ready s)
    (hy : l.y.value.WF) (hyg : l.y.grad.Ready s)
    (ids : l.gradIds.Nodup) (idx : l.x.value.id ∉ l.gradIds) (idw : l.w.value.id ∉ l.gradIds) (idy : l.y.grad.id ∉ l.gradIds)
    (x w dy x0 w0 b0 : List Nat → ℝ) (vx : l.x.value.Holds s x)
    (vw : l.w.value.Holds s w) (vdy : l.y.grad.Holds s dy) (vx0 : l.x.GradHolds s x0) (vw0 : l.w.GradHolds s w0) (vb0 : ∀ b ∈ l.b, b.GradHolds s b0) :
    Runs l.backwardAsync s l.gradIds (fun s' => ∃ gx gw gb : List Nat → ℝ,
      l.x.GradHolds s' (fun I => x0 I + gx I) ∧ l.w.GradHolds s' (fun I => w0 I + gw I) ∧ (∀ b ∈ l.b, b.GradHolds s' (fun I => b0 I + gb I)) ∧
      ∀ bv, (l.x.gradRequired → IsGrad l.x.value.shape l.y.value.shape (fun x => linearOut l.side l.transX M.length K x w bv) x dy gx) ∧
        (l.w.gradRequired → IsGrad l.w.value.shape l.y.value.shape (fun w => linearOut l.side l.transX M.length K x w bv) w dy gw) ∧
        ∀ b ∈ l.b, b.gradRequired → IsGrad b.value.shape l.y.value.shape (fun bv => linearOut l.side l.transX M.length K x w bv) bv dy gb) := by
  unfold Linear.gradIds at *
  simp only [List.mem_append, not_or] at idx idw idy
  simp only [List.nodup_append, List.mem_append] at ids
  obtain ⟨⟨-, -, ids1⟩, -, ids2⟩ := ids
  have h1 : Runs (whenAsync l.w.gradRequired l.backwardW) s l.w.gradIds (fun s' => ∃ gw : List Nat → ℝ,
      l.w.GradHolds s' (fun I => w0 I + gw I) ∧ ∀ bv, (l.w.gradRequired → IsGrad l.w.value.shape l.y.value.shape
        (fun w => linearOut l.side l.transX M.length K x w bv) w dy gw)) := by
    by_cases hr : l.w.gradRequired = true
    · have hi : l.w.grad.id ∈ l.w.gradIds := by simp [Moments.gradIds, hr]
      obtain ⟨g, h1, h2⟩ := linear_backwardW fit hx hyg (vw0 hr).1 (fun e => idx.1.2 (e ▸ hi)) (fun e => idy.1.2 (e ▸ hi)) vx vdy (vw0 hr).2
      exact (Moments.when_runs fun _ => h1).imp (fun _ h => h) fun s' _ h => ⟨g, h, fun bv _ => h2 w bv⟩
    · rw [whenAsync, if_neg hr]
      exact Runs.skip ⟨0, fun h => absurd h hr, fun _ h => absurd h hr⟩
  refine h1.cons' (fun i hi => by simp [hi]) fun s1 c1 => ?_
  rintro ⟨gw, qw, qw'⟩
  have h2 : Runs l.backwardB s1 (l.b.toList.flatMap Moments.gradIds) (fun s' => ∃ gb : List Nat → ℝ,
      (∀ b ∈ l.b, b.GradHolds s' (fun I => b0 I + gb I)) ∧ ∀ bv, ∀ b ∈ l.b, b.gradRequired → IsGrad b.value.shape l.y.value.shape
        (fun bv => linearOut l.side l.transX M.length K x w bv) bv dy gb) := by
    cases hb : l.b with
    | none =>
      rw [Linear.backwardB, hb]
      exact Runs.skip ⟨0, by simp⟩
    | some b =>
      by_cases hr : b.gradRequired = true
      · have hi : b.grad.id ∈ l.b.toList.flatMap Moments.gradIds := by simp [hb, Moments.gradIds, hr]
        have hbw : b.grad.id ∉ l.w.gradIds := fun h => ids2 _ (Or.inr h) _ hi rfl
        have hv := vb0 b hb hr
        obtain ⟨g, h1, h2⟩ := linear_backwardB fit hb hr (c1.ready hyg idy.1.2) hy (c1.ready hv.1 hbw) (fun e => idy.2 (e ▸ hi))
          (c1.holds vdy idy.1.2) (c1.holds hv.2 hbw)
        refine h1.runs.imp (by simp [Moments.gradIds, hr]) fun s' _ h => ⟨g, ?_, ?_⟩
        · intro b' hb'
          cases hb'
          exact fun _ => ⟨h.2, h.1⟩
        · intro bv b' hb' _
          cases hb'
          exact h2 x w bv
      · rw [Linear.backwardB, hb]
        simp only [whenAsync, if_neg hr]
        refine Runs.skip ⟨0, ?_, ?_⟩
        · intro b' hb' h
          cases hb'
          exact absurd h hr
        · intro bv b' hb' h
          cases hb'
          exact absurd h hr
  refine h2.cons' (fun i hi => by simp only [List.mem_append]; exact Or.inr hi) fun s2 c2 => ?_
  rintro ⟨gb, qb, qb'⟩
  have c12 := c1.trans c2
  have h3 : Runs (whenAsync l.x.gradRequired l.backwardX) s2 l.x.gradIds (fun s' => ∃ gx : List Nat → ℝ,
      l.x.GradHolds s' (fun I => x0 I + gx I) ∧ ∀ bv, (l.x.gradRequired → IsGrad l.x.value.shape l.y.value.shape
        (fun x => linearOut l.side l.transX M.length K x w bv) x dy gx)) := by
    by_cases hr : l.x.gradRequired = true
    · have hi : l.x.grad.id ∈ l.x.gradIds := by simp [Moments.gradIds, hr]
      have hxn : l.x.grad.id ∉ l.w.gradIds ++ l.b.toList.flatMap Moments.gradIds := by
        rw [List.mem_append, not_or]
        exact ⟨fun h => ids1 _ hi _ h rfl, fun h => ids2 _ (Or.inl hi) _ h rfl⟩
      have hyn : l.y.grad.id ∉ l.w.gradIds ++ l.b.toList.flatMap Moments.gradIds := by
        rw [List.mem_append, not_or]; exact ⟨idy.1.2, idy.2⟩
      have hwn : l.w.value.id ∉ l.w.gradIds ++ l.b.toList.flatMap Moments.gradIds := by
        rw [List.mem_append, not_or]; exact ⟨idw.1.2, idw.2⟩
      obtain ⟨g, h1, h2⟩ := linear_backwardX fit (c12.ready hw hwn) (c12.ready hyg hyn) (c12.ready (vx0 hr).1 hxn) (fun e => idw.1.1 (e ▸ hi))
        (fun e => idy.1.1 (e ▸ hi)) (c12.holds vw hwn) (c12.holds vdy hyn) (c12.holds (vx0 hr).2 hxn)
      exact (Moments.when_runs fun _ => h1).imp (fun _ h => h) fun s' _ h => ⟨g, h, fun bv _ => h2 x bv⟩
    · rw [whenAsync, if_neg hr]
      exact Runs.skip ⟨0, fun h => absurd h hr, fun _ h => absurd h hr⟩
  refine h3.cons' (fun i hi => by simp [hi]) fun s3 c3 => ?_
  rintro ⟨gx, qx, qx'⟩
  refine Runs.nil ⟨gx, gw, gb, qx, ?_, ?_, fun bv => ⟨qx' bv, qw' bv, qb' bv⟩⟩
  · refine (qw.changed c2 fun i hi h => ids2 _ (Or.inr hi) _ h rfl).changed c3 fun i hi h => ids1 _ h _ hi rfl
  · intro b hb
    refine (qb b hb).changed c3 fun i hi h => ids2 _ (Or.inl h) i ?_ rfl
    rw [Option.mem_def] at hb
    simpa [hb] using hi

/-! ### Construction -/

/-- `Linear.generate_simple` succeeds for each number `0 < n <= x.ndim` of features dimensions and any shape and tiling of the output features (one-dimensional
with bias), and the layer it returns fits, so that the two theorems above apply to it; the new tensors get new, different identities. -/
theorem C33_linear_generate {x : Moments} (hx : x.value.WF) (hg : x.grad.shape = x.value.shape ∧ x.grad.basetile = x.value.basetile) (side : Side)
    (tx : TransOp) {n : Nat} (hn : 0 < n) (hn' : n ≤ x.value.ndim) {S B : List Nat} (hS : Pos S) (hB : Pos B) (hl : B.length = S.length) (bias : Bool)
    (hb : bias = true → S.length = 1) (next : Nat) (redux : Bool) :
    ∃ l, Linear.generate x side tx n S B next bias redux = .ok l ∧ l.x = x ∧ l.side = side ∧ l.transX = tx ∧ l.b.isSome = bias ∧
      (∃ M K N, l.Fits M K N) ∧
      (∀ m ∈ l.w :: l.y :: l.b.toList, m.value.WF ∧ m.grad.WF ∧ m.gradRequired = true) ∧
      ((l.w :: l.y :: l.b.toList).flatMap (fun m => [m.value.id, m.grad.id])).Nodup ∧
      ∀ m ∈ l.w :: l.y :: l.b.toList, next ≤ m.value.id ∧ next ≤ m.grad.id := by
  obtain ⟨xv, xg, xr⟩ := x
  obtain ⟨id, X, T⟩ := xv
  obtain ⟨hX, hT, hXT⟩ := hx
  simp only [Tensor.ndim] at *
  have hW : Pos (linearW side tx n X S) ∧ Pos (linearW side tx n T B) ∧ (linearW side tx n T B).length = (linearW side tx n X S).length := by
    refine ⟨?_, ?_, ?_⟩
    · cases side <;> cases tx <;> simp [linearW, lastOf, hS, hX.drop, hX.take]
    · cases side <;> cases tx <;> simp [linearW, lastOf, hB, hT.drop, hT.take]
    · cases side <;> cases tx <;> simp [linearW, lastOf, hXT, hl]
  have hY : Pos (linearY side tx n X S) ∧ Pos (linearY side tx n T B) ∧ (linearY side tx n T B).length = (linearY side tx n X S).length := by
    refine ⟨?_, ?_, ?_⟩
    · cases side <;> cases tx <;> simp [linearY, exceptLast, hS, hX.drop, hX.take]
    · cases side <;> cases tx <;> simp [linearY, exceptLast, hB, hT.drop, hT.take]
    · cases side <;> cases tx <;> simp [linearY, exceptLast, hXT, hl]
  have hWg : (Tensor.mk (next + 1) (linearW side tx n X S) (linearW side tx n T B)).WF := hW
  have hK : ((genK side tx n X).length : Int) = n := by rw [genK_length hn']
  have hK' : (genK side tx n T).length = (genK side tx n X).length := by rw [genK_length hn', genK_length (by omega)]
  have e0 : Linear.generate ⟨⟨id, X, T⟩, xg, xr⟩ side tx n S B next bias redux = .ok ⟨side, tx, ⟨⟨id, X, T⟩, xg, xr⟩,
      ⟨⟨next + 4, linearY side tx n X S, linearY side tx n T B⟩, ⟨next + 5, linearY side tx n X S, linearY side tx n T B⟩, true⟩,
      ⟨⟨next, linearW side tx n X S, linearW side tx n T B⟩, ⟨next + 1, linearW side tx n X S, linearW side tx n T B⟩, true⟩, n,
      if bias then some ⟨⟨next + 2, S, B⟩, ⟨next + 3, S, B⟩, true⟩ else none, redux⟩ := by
    unfold Linear.generate
    rw [throwIf_neg (by omega), M.bind_ok]
    simp only [Int.toNat_natCast, newTensor_ok hW, newTensor_ok hY, M.bind_ok]
    cases bias with
    | false => simp only [Bool.false_eq_true, if_false, M.bind_ok, Linear.init]; rw [throwIf_neg (by omega), M.bind_ok]
    | true =>
      simp only [if_true, newTensor_ok ⟨hS, hB, hl⟩, M.bind_ok, Linear.init]
      rw [throwIf_neg (by have := hb rfl; omega), M.bind_ok, M.bind_ok, throwIf_neg (by omega), M.bind_ok]
  refine ⟨_, e0, rfl, rfl, rfl, by cases bias <;> rfl, ⟨genM side tx n X S, genK side tx n X, genN side tx n X S, ?_⟩, ?_, ?_, ?_⟩
  · refine ⟨hK.symm, gen_dims .., ⟨genM side tx n T B, genK side tx n T, genN side tx n T B, hK', gen_dims .., ?_⟩, ?_, ?_⟩
    · intro b hb'
      cases bias with
      | false => simp at hb'
      | true => simp at hb'; subst hb'; simp [gen_bias]
    · intro b hb'
      cases bias with
      | false => simp at hb'
      | true => simp at hb'; subst hb'; simp [gen_bias, hb rfl]
    · simpa using hg
  · cases bias <;> simp [Tensor.WF, hW, hY, hS, hB, hl]
  · cases bias <;> simp
  · cases bias <;> simp

/-- `generate_simple` raises an exception if `ndim` is not positive, if a bias is requested for more than one output features dimension and if shape and
tiling of the output features do not fit. -/
theorem C33_linear_generate_rejects {x : Moments} (hx : x.value.WF) (side : Side) (tx : TransOp) (ndim : Int) (S B : List Nat) (bias : Bool) (next : Nat) (redux : Bool)
    (h : ndim ≤ 0 ∨ (bias = true ∧ 1 < S.length) ∨ ¬ (Pos S ∧ Pos B ∧ B.length = S.length)) :
    Throws (Linear.generate x side tx ndim S B next bias redux) := by
  unfold Linear.generate
  refine throws_step fun h1 => ?_
  have hl := hx.2.2
  by_cases hW : Pos (linearW side tx ndim.toNat x.value.shape S) ∧ Pos (linearW side tx ndim.toNat x.value.basetile B) ∧
      (linearW side tx ndim.toNat x.value.basetile B).length = (linearW side tx ndim.toNat x.value.shape S).length
  · have hSB : Pos S ∧ Pos B ∧ B.length = S.length := by
      refine ⟨?_, ?_, ?_⟩
      · have := hW.1; revert this; cases side <;> cases tx <;> simp +contextual [linearW]
      · have := hW.2.1; revert this; cases side <;> cases tx <;> simp +contextual [linearW]
      · have := hW.2.2; revert this; cases side <;> cases tx <;> simp +contextual [linearW, lastOf, hl]
    simp only [newTensor_ok hW, M.bind_ok]
    obtain ⟨rfl, h2⟩ : bias = true ∧ 1 < S.length := by tauto
    simp only [if_true]
    exact (throws_pos (by omega)).bind
  · have : Throws (newTensor next (linearW side tx ndim.toNat x.value.shape S) (linearW side tx ndim.toNat x.value.basetile B)) := by
      rw [newTensor]
      exact throws_pos (by simpa [Tensor.WF] using hW)
    exact this.bind

/-! ### The hypotheses can be met -/

/-- A layer with `x` of shape `5×7` in tiles `2×3`, three output features and a bias. -/
def linearExample : Linear :=
  { side := .L, transX := .trans, x := ⟨⟨0, [7, 5], [3, 2]⟩, ⟨1, [7, 5], [3, 2]⟩, true⟩, y := ⟨⟨2, [5, 3], [2, 2]⟩, ⟨3, [5, 3], [2, 2]⟩, true⟩,
    w := ⟨⟨4, [7, 3], [3, 2]⟩, ⟨5, [7, 3], [3, 2]⟩, true⟩, ndim := 1, b := some ⟨⟨6, [3], [2]⟩, ⟨7, [3], [2]⟩, true⟩, redux := true }

theorem linearExample_fits : linearExample.Fits [5] [7] [3] := by
  refine ⟨rfl, ⟨rfl, rfl, rfl⟩, ⟨[2], [3], [2], rfl, ⟨rfl, rfl, rfl⟩, ?_⟩, ?_, ?_⟩
  · rintro b ⟨⟩; exact ⟨rfl, rfl⟩
  · rintro b ⟨⟩; exact ⟨rfl, rfl, rfl⟩
  · simp [linearExample]

example (x w b x0 w0 b0 dy : List Nat → ℝ) : ∃ s : Store ℝ,
    Computes linearExample.forwardAsync s linearExample.y.value (linearOut .L .trans 1 [7] x w b) ∧
    Runs linearExample.backwardAsync s [1, 5, 7] (fun s' => ∃ gb : List Nat → ℝ, Tensor.Holds ⟨7, [3], [2]⟩ s' (fun I => b0 I + gb I)) := by
  have h := storeOf_spec [(linearExample.x.value, x), (linearExample.x.grad, x0), (linearExample.y.value, fun _ => 0), (linearExample.y.grad, dy),
    (linearExample.w.value, w), (linearExample.w.grad, w0), (⟨6, [3], [2]⟩, b), (⟨7, [3], [2]⟩, b0)]
    (by simp [linearExample, Tensor.WF]) (by simp [linearExample])
  simp only [List.forall_mem_cons, List.not_mem_nil, IsEmpty.forall_iff, implies_true, and_true] at h
  obtain ⟨hx, hxg, hy, hyg, hw, hwg, hb, hbg⟩ := h
  refine ⟨_, C33_linear_forward linearExample_fits hx.1 hw.1 hy.1 (by rintro m ⟨⟩; exact ⟨hb.1, by decide⟩) (by decide) (by decide) x w b hx.2 hw.2
    (by rintro m ⟨⟩; exact hb.2), ?_⟩
  have := C33_linear_backward linearExample_fits hx.1 hw.1 hy.1.1 hyg.1 (by decide) (by decide) (by decide) (by decide) x w dy x0 w0 b0 hx.2 hw.2 hyg.2
    (fun _ => hxg) (fun _ => hwg) (by rintro m ⟨⟩; exact fun _ => hbg)
  refine this.imp (by decide) ?_
  rintro s' _ ⟨gx, gw, gb, -, -, h, -⟩
  exact ⟨gb, (h _ rfl rfl).2⟩

end NNTile
