import Verif.Spec.Loss
import Verif.Lib.Layer
import Verif.Lib.Store
import Verif.Props.C11
import Verif.Props.C19Real
import Verif.Props.C20
import Verif.Props.C23
import Verif.Lib.LayerNorm
import Verif.Lib.Network
import Mathlib.Tactic.FinCases
import Mathlib.Tactic.Linarith
/-!
# C40: the cross entropy loss
-/
namespace NNTile
open Finset

/-- The gradient of the cross entropy: `scale * (softmax - indicator of the label)`. -/
theorem C40_ce_gradient (asIdx : ℝ → Int) (S : List Nat) (n : Nat) (scale : ℝ) (Y X : List Nat → ℝ) (hok : ∀ J ∈ box S, 0 ≤ asIdx (Y J) ∧ asIdx (Y J) < n) :
    IsLossGrad (n :: S) (ceLoss asIdx S n scale Y) X (fun I =>
      scale * (Real.exp (X I) / ∑ c ∈ range n, Real.exp (X (c :: I.tail))) - if asIdx (Y I.tail) = I.headD 0 then scale else 0) := by
  intro c h h0 hc
  subst h0
  have hbox : ∀ (F : List Nat → ℝ), ∑ I ∈ box (n :: S), F I = ∑ J ∈ box S, ∑ k ∈ range n, F (k :: J) := by
    intro F
    rw [sum_box_insert (S := n :: S) (a := 0) (by simp)]
    rfl
  have hin : ∀ k J, k < n → J ∈ box S → (k :: J) ∈ box (n :: S) := fun k J hk hJ => mem_box.2 ⟨hk, mem_box.1 hJ⟩
  have hterm : ∀ J ∈ box S, HasDerivAt (fun t => Real.log (∑ k ∈ range n, Real.exp (c t (k :: J))) - c t ((asIdx (Y J)).toNat :: J))
      ((∑ k ∈ range n, Real.exp (c 0 (k :: J)) * h (k :: J)) / (∑ k ∈ range n, Real.exp (c 0 (k :: J))) - h ((asIdx (Y J)).toNat :: J)) 0 := by
    intro J hJ
    obtain ⟨g1, g2⟩ := hok J hJ
    have hl : (asIdx (Y J)).toNat < n := by omega
    have h1 := HasDerivAt.fun_sum (u := range n) fun k hk => (hc _ (hin k J (mem_range.1 hk) hJ)).exp
    have hpos : 0 < ∑ k ∈ range n, Real.exp (c 0 (k :: J)) := sum_pos (fun _ _ => Real.exp_pos _) ⟨_, mem_range.2 hl⟩
    exact (h1.log hpos.ne').sub (hc _ (hin _ J hl hJ))
  refine ((HasDerivAt.fun_sum hterm).const_mul scale).congr_deriv ?_
  rw [hbox, mul_sum]
  refine sum_congr rfl fun J hJ => ?_
  obtain ⟨g1, g2⟩ := hok J hJ
  have hl : (asIdx (Y J)).toNat < n := by omega
  change _ = ∑ k ∈ range n, (scale * (Real.exp (c 0 (k :: J)) / ∑ k ∈ range n, Real.exp (c 0 (k :: J))) - if asIdx (Y J) = (k : Int) then scale else 0) * h (k :: J)
  simp only [sub_mul, sum_sub_distrib]
  have e2 : ∑ k ∈ range n, (if asIdx (Y J) = (k : Int) then scale else 0) * h (k :: J) = scale * h ((asIdx (Y J)).toNat :: J) := by
    rw [sum_eq_single (asIdx (Y J)).toNat]
    · rw [if_pos (by omega)]
    · intro k _ hk
      rw [if_neg (by omega), zero_mul]
    · intro hk
      exact absurd (mem_range.2 hl) hk
  rw [e2, mul_sub, sum_div, mul_sum]
  congr 1
  exact sum_congr rfl fun k _ => by ring

/-- `CrossEntropy.calc_async` adds the cross entropy of the output `X` and the labels `Y` to `val`, and (if a gradient is required) overwrites the gradient of the
output by `scale * (softmax - indicator of the label)`, whatever it contained. -/
theorem C40_cross_entropy {l : CrossEntropy ℝ} {n : Nat} (fit : l.Fits n) (asIdx : ℝ → Int) {s : Store ℝ} {X Y : List Nat → ℝ} {v : ℝ}
    (hr : ∀ T ∈ [l.modelOutput.value, l.y, l.val, l.maxsumexp, l.logsumexp], T.Ready s) (hg : l.modelOutput.gradRequired = true → l.modelOutput.grad.Ready s)
    (hX : l.modelOutput.value.Holds s X) (hY : l.y.Holds s Y) (hok : LabelsOk l.y n asIdx Y) (hv : l.val.Holds s (fun _ => v)) :
    Runs (l.calcAsync asIdx) s ([l.val.id, l.maxsumexp.id, l.logsumexp.id] ++ l.modelOutput.gradIds) (fun s' =>
      l.val.Holds s' (fun _ => v + ceLoss asIdx l.y.shape n l.scale Y X) ∧
      l.modelOutput.GradHolds s' (fun I => l.scale * (Real.exp (X I) / ∑ c ∈ range n, Real.exp (X (c :: I.tail))) - if asIdx (Y I.tail) = I.headD 0 then l.scale else 0) ∧
      ∀ T ∈ [l.modelOutput.value, l.y, l.val, l.maxsumexp, l.logsumexp], T.Ready s') := by
  have hids := fit.ids
  simp only [List.map_cons, List.map_nil, List.nodup_cons, List.mem_cons, List.not_mem_nil, or_false, not_or, List.nodup_nil, and_true, not_false_eq_true] at hids
  obtain ⟨⟨i01, i02, i03, i04, i05⟩, ⟨i12, i13, i14, i15⟩, ⟨i23, i24, i25⟩, ⟨i34, i35⟩, i45⟩ := hids
  have hsh := fit.out.shape
  have hbt := fit.out.basetile
  have hn : 0 < n := by
    have := (hr l.modelOutput.value (by simp)).1.1
    rw [hsh] at this
    exact this n (by simp)
  let L : Fin 5 → Tensor := ([l.modelOutput.value, l.y, l.val, l.maxsumexp, l.logsumexp] : List Tensor).get
  have inj : Function.Injective fun i => (L i).id := get_id_injective (L := [l.modelOutput.value, l.y, l.val, l.maxsumexp, l.logsumexp]) (by
    simp only [List.map_cons, List.map_nil, List.nodup_cons, List.mem_cons, List.not_mem_nil, or_false, not_or, List.nodup_nil, and_true, not_false_eq_true]
    tauto)
  have h0 : St L s (fun i => if i = 0 then some X else if i = 1 then some Y else if i = 2 then some (fun _ => v) else none) := St.ofList hr _ (by
    intro i w hw
    change Fin 5 at i
    by_cases i0 : i = 0
    · subst i0; cases hw; exact hX
    by_cases i1 : i = 1
    · subst i1; cases hw; exact hY
    by_cases i2 : i = 2
    · subst i2; cases hw; exact hv
    simp [i0, i1, i2] at hw)
  have mse : l.maxsumexp.MseOf l.modelOutput.value 0 := ⟨by rw [hsh]; simp, by rw [hsh]; exact fit.maxsumexp.1, by rw [hbt]; exact fit.maxsumexp.2⟩
  have mseg : l.maxsumexp.MseOf l.modelOutput.grad 0 := ⟨by rw [fit.grad.1, hsh]; simp, by rw [fit.grad.1, hsh]; exact fit.maxsumexp.1,
    by rw [fit.grad.2, hbt]; exact fit.maxsumexp.2⟩
  have lg : LabelFit l.y l.modelOutput.grad n := ⟨by rw [fit.grad.1, hsh], by rw [fit.grad.2, hbt]⟩
  rw [CrossEntropy.calcAsync]
  -- the gradient stays registered
  have hgr : ∀ {s' : Store ℝ}, OnlyChanged [l.val.id, l.maxsumexp.id, l.logsumexp.id] s s' → l.modelOutput.gradRequired = true → l.modelOutput.grad.Ready s' := by
    intro s' hc hq
    refine hc.ready (hg hq) ?_
    simp only [List.mem_cons, List.not_mem_nil, or_false, not_or]
    exact ⟨i13, i14, i15⟩
  -- the first four calls
  have first : Runs (seqAsync [clearAsync l.maxsumexp, maxsumexpAsync l.modelOutput.value l.maxsumexp 0 l.redux, logsumexpAsync l.maxsumexp l.logsumexp,
      totalSumAccumAsync asIdx l.scale l.logsumexp l.modelOutput.value l.y l.val]) s [l.val.id, l.maxsumexp.id, l.logsumexp.id] (fun s' =>
      ∃ w : List Nat → ℝ, (∀ J, InBox l.y.shape J → (∃ k, k < n ∧ w (0 :: J) = X (k :: J)) ∧ w (1 :: J) = ∑ k ∈ range n, Real.exp (X (k :: J) - w (0 :: J))) ∧
        St L s' (fun i => if i = 0 then some X else if i = 1 then some Y else if i = 2 then some (fun _ => v + ceLoss asIdx l.y.shape n l.scale Y X) else
          if i = 3 then some w else none)) := by
    refine h0.step inj (i := 3) (C11_clear (h0.ready 3)) (by simp [L]) fun s1 h1 => ?_
    obtain ⟨w, hw, hm⟩ := C19_maxsumexp_real (h1.ready 0) (h1.ready 3) (show l.modelOutput.value.id ≠ l.maxsumexp.id from i04) mse l.redux X (h1.hold 0 _ rfl) (h1.hold 3 _ rfl)
    rw [show (L 0).shape = n :: l.y.shape from hsh] at hm
    simp only [List.eraseIdx_cons_zero, List.insertIdx_zero, List.getD_cons_zero] at hm
    refine h1.step inj (i := 3) hw (by simp [L]) fun s2 h2 => ?_
    refine h2.step inj (i := 4) ((C20_logsumexp_bits (h2.ready 3) (h2.ready 4) (show l.maxsumexp.id ≠ l.logsumexp.id from i45) (by
        show l.maxsumexp.shape = 2 :: l.logsumexp.shape
        rw [fit.maxsumexp.1, fit.logsumexp.1]) (by
        show l.maxsumexp.basetile = 2 :: l.logsumexp.basetile
        rw [fit.maxsumexp.2, fit.logsumexp.2]) w (h2.hold 3 _ rfl)).congr (w := fun J => Real.log (∑ k ∈ range n, Real.exp (X (k :: J)))) fun J hJ => ?_)
      (by simp [L]) fun s3 h3 => ?_
    · have hJ' : InBox l.y.shape J := by rw [← fit.logsumexp.1]; exact hJ
      obtain ⟨a1, a2, a3⟩ := hm J hJ'
      exact (C19_real_meaning (r := fun k => X (k :: J)) a1 a3).2.2.1
    obtain ⟨ts, e1, e2⟩ := C23_total_sum_accum asIdx (h3.ready 4) (h3.ready 0) (h3.ready 1) (h3.ready 2) (show l.logsumexp.id ≠ l.val.id from Ne.symm i35)
      (show l.modelOutput.value.id ≠ l.val.id from i03) (show l.y.id ≠ l.val.id from i23) fit.out fit.logsumexp fit.val l.scale _ X Y v (h3.hold 4 _ rfl) (h3.hold 0 _ rfl)
      (h3.hold 1 _ rfl) (h3.hold 2 _ rfl) hok
    have e3 := e2 ts (List.Perm.refl _)
    refine h3.step inj (i := 2) (p := totalSumAccumAsync asIdx l.scale l.logsumexp l.modelOutput.value l.y l.val) (by
        have e1' : totalSumAccumAsync asIdx l.scale l.logsumexp l.modelOutput.value l.y l.val = .ok ts := e1
        rw [e1']; exact e3) (by simp [L]) fun s4 h4 => ?_
    refine Runs.nil ⟨w, fun J hJ => ⟨(hm J hJ).1, (hm J hJ).2.2⟩, h4.ready, fun i u hu => ?_⟩
    refine h4.hold i u ?_
    fin_cases i
    · exact hu
    · exact hu
    · exact hu
    · exact hu
    · cases hu
  refine Runs.append (p := [clearAsync l.maxsumexp, maxsumexpAsync l.modelOutput.value l.maxsumexp 0 l.redux, logsumexpAsync l.maxsumexp l.logsumexp,
      totalSumAccumAsync asIdx l.scale l.logsumexp l.modelOutput.value l.y l.val]) (q := [whenAsync l.modelOutput.gradRequired (softmaxAsync l.maxsumexp l.modelOutput.value
      l.scale l.modelOutput.grad 0), whenAsync l.modelOutput.gradRequired (subtractIndexedAsync asIdx l.scale l.y l.modelOutput.grad)]) first ?_
  rintro s4 hc4 ⟨w, hw, h4⟩
  have fin : ∀ {s' : Store ℝ}, St L s' (fun i => if i = 0 then some X else if i = 1 then some Y else if i = 2 then some (fun _ => v + ceLoss asIdx l.y.shape n l.scale Y X) else
          if i = 3 then some w else none) → (l.val.Holds s' (fun _ => v + ceLoss asIdx l.y.shape n l.scale Y X) ∧
          ∀ T ∈ [l.modelOutput.value, l.y, l.val, l.maxsumexp, l.logsumexp], T.Ready s') := by
    intro s' h
    refine ⟨h.hold 2 _ rfl, ?_⟩
    intro T hT
    obtain ⟨i, hi, rfl⟩ := List.mem_iff_get.1 hT
    exact h.ready i
  by_cases hq : l.modelOutput.gradRequired = true
  · have keep : ∀ {s' s'' : Store ℝ} {σ : Fin 5 → Option (List Nat → ℝ)}, OnlyChanged [l.modelOutput.grad.id] s' s'' → St L s' σ → St L s'' σ := by
      intro s' s'' σ hc h
      have hne : ∀ i, (L i).id ∉ [l.modelOutput.grad.id] := by
        intro i
        rw [List.mem_singleton]
        fin_cases i
        · exact i01
        · exact Ne.symm i12
        · exact Ne.symm i13
        · exact Ne.symm i14
        · exact Ne.symm i15
      exact ⟨fun i => hc.ready (h.ready i) (hne i), fun i u hu => hc.holds (h.hold i u hu) (hne i)⟩
    simp only [whenAsync, hq, if_true, Moments.gradIds]
    refine (C20_softmax_bits (h4.ready 3) (h4.ready 0) (hgr hc4 hq) (Ne.symm i14) i01 mseg fit.grad.1.symm fit.grad.2.symm l.scale w X (h4.hold 3 _ rfl)
      (h4.hold 0 _ rfl)).runs.cons fun s5 c5 q5 => ?_
    have h5 := keep c5 h4
    refine (C23_subtract_indexed_outputs asIdx (h5.ready 1) q5.2 (Ne.symm i12) lg l.scale Y _ (h5.hold 1 _ rfl) q5.1 hok).runs.cons fun s6 c6 q6 => ?_
    have h6 := keep c6 h5
    refine Runs.nil ⟨(fin h6).1, fun _ => ⟨q6.2, fun I hI => ?_⟩, (fin h6).2⟩
    refine (q6.1 I hI).trans (congrArg some ?_)
    rw [fit.grad.1, hsh] at hI
    cases I with
    | nil => simp [InBox] at hI
    | cons k J =>
      obtain ⟨hk, hJ⟩ := hI
      obtain ⟨a1, a2⟩ := hw J hJ
      have e := (C19_real_meaning (r := fun k => X (k :: J)) a1 a2).2.2.2 k
      have e0 : FP.isInf (X (k :: J)) = false := rfl
      simp only [e0, List.eraseIdx_cons_zero, List.tail_cons, List.headD_cons, Bool.false_eq_true, if_false]
      rw [mul_div_assoc, show FP.exp (X (k :: J) - w (0 :: J)) = Real.exp (X (k :: J) - w (0 :: J)) from rfl, e]
      change (if asIdx (Y J) = (k : Int) then _ else _) = _ - if asIdx (Y J) = (k : Int) then l.scale else 0
      by_cases hk' : asIdx (Y J) = (k : Int)
      · rw [if_pos hk', if_pos hk']
      · rw [if_neg hk', if_neg hk', sub_zero]
  · simp only [whenAsync, hq, Bool.false_eq_true, if_false]
    refine (Runs.skip (ids := l.modelOutput.gradIds) (P := fun s' => s' = s4) rfl).cons fun s5 c5 q5 => ?_
    refine (Runs.skip (ids := l.modelOutput.gradIds) (P := fun s' => s' = s4) q5).cons fun s6 c6 q6 => ?_
    subst q6
    exact Runs.nil ⟨(fin h4).1, fun h => absurd h hq, (fin h4).2⟩

/-- As a loss function of a network (the gradient of the output being required). -/
theorem C40_cross_entropy_correct {l : CrossEntropy ℝ} {n : Nat} (fit : l.Fits n) (hg : l.modelOutput.gradRequired = true) (asIdx : ℝ → Int) :
    (l.toNet asIdx).Correct := by
  have hn : l.modelOutput.value.shape.headD 0 = n := by rw [fit.out.shape]; rfl
  intro s X Y v hx hX hy hY hok hgr hv hvv ht
  simp only [CrossEntropy.toNet, hn] at *
  refine (C40_cross_entropy fit asIdx (by
    simp only [List.forall_mem_cons, List.not_mem_nil, IsEmpty.forall_iff, implies_true, and_true]
    exact ⟨hx, hy, hv, ht _ (by simp), ht _ (by simp)⟩) (fun _ => hgr) hX hY hok (hvv trivial)).imp (by simp [Moments.gradIds, hg]) fun s' _ ⟨q1, q2, q3⟩ => ?_
  refine ⟨by simpa using q1, q3 _ (by simp), ⟨_, (q2 hg).2, ?_⟩, (q2 hg).1, fun T hT => q3 T (by
    simp only [List.mem_cons, List.not_mem_nil, or_false] at hT ⊢
    tauto)⟩
  rw [fit.out.shape]
  exact C40_ce_gradient asIdx l.y.shape n l.scale Y X (fun J hJ => hok J (mem_box.1 hJ))

/-- `generate_simple` makes such a loss function if all classes are in one tile. -/
theorem C40_cross_entropy_generate {out : Moments} {n : Nat} {S B : List Nat} (hout : out.value.shape = n :: S ∧ out.value.basetile = n :: B) (hwf : out.value.WF)
    (hg : out.grad.shape = out.value.shape ∧ out.grad.basetile = out.value.basetile) (hid : out.value.id ≠ out.grad.id)
    {next : Nat} (hn : out.value.id < next ∧ out.grad.id < next) (redux : Bool) (scale : ℝ) :
    ∃ l, CrossEntropy.generate out next redux scale = .ok l ∧ l.modelOutput = out ∧ l.redux = redux ∧ l.scale = scale ∧ l.Fits n ∧
      ∀ T ∈ [l.y, l.val, l.maxsumexp, l.logsumexp], T.WF ∧ next ≤ T.id ∧ T.id < next + 4 := by
  obtain ⟨hs, hb⟩ := hout
  have hwf' := hwf
  rw [Tensor.WF, hs, hb] at hwf'
  obtain ⟨w1, w2, w3⟩ := hwf'
  have wS : Pos S := fun i hi => w1 i (by simp [hi])
  have wB : Pos B := fun i hi => w2 i (by simp [hi])
  have wl : B.length = S.length := by simpa using w3
  have hn0 : 0 < n := w1 n (by simp)
  have w2S : Pos (2 :: S) := by intro i hi; rcases List.mem_cons.1 hi with rfl | h; exacts [two_pos, wS i h]
  have w2B : Pos (2 :: B) := by intro i hi; rcases List.mem_cons.1 hi with rfl | h; exacts [two_pos, wB i h]
  have ht : ∀ k, 0 < k → gridOf (k :: S) (k :: B) = 1 :: gridOf S B := by
    intro k hk
    rw [gridOf_cons, Nat.div_eq_of_lt (by omega)]
  refine ⟨⟨out, ⟨next, S, B⟩, ⟨next + 2, [], []⟩, ⟨next + 1, 2 :: S, 2 :: B⟩, ⟨next + 3, S, B⟩, redux, scale⟩, ?_, rfl, rfl, rfl, ?_, ?_⟩
  · unfold CrossEntropy.generate newTensorD
    have e0 : out.value.ntiles = (gridOf S B).prod := by rw [Tensor.ntiles, Tensor.grid, hs, hb, ht n hn0, List.prod_cons, one_mul]
    have e1 : ∀ i, (⟨i, S, B⟩ : Tensor).ntiles = (gridOf S B).prod := fun _ => rfl
    have e2 : ∀ i, (⟨i, [], []⟩ : Tensor).ntiles = 1 := fun _ => rfl
    have e3 : ∀ i, (⟨i, 2 :: S, 2 :: B⟩ : Tensor).ntiles = (gridOf S B).prod := fun _ => by
      rw [Tensor.ntiles, Tensor.grid, ht 2 two_pos, List.prod_cons, one_mul]
    have d1 : pyDrop out.value.shape 1 = S := by rw [hs]; rfl
    have d2 : pyDrop out.value.basetile 1 = B := by rw [hb]; rfl
    simp only [d1, d2, newTensor_ok ⟨wS, wB, wl⟩, newTensor_ok (S := []) (B := []) ⟨by simp [Pos], by simp [Pos], rfl⟩,
      newTensor_ok (S := 2 :: S) (B := 2 :: B) ⟨w2S, w2B, by simp [wl]⟩, M.bind_ok, e0, e1, e2, e3]
    simp [throwIf, M.bind_ok]
  · refine ⟨?_, ⟨hs, hb⟩, hg, ⟨rfl, rfl⟩, ⟨rfl, rfl⟩, rfl⟩
    simp
    omega
  · simp only [List.forall_mem_cons, List.not_mem_nil, IsEmpty.forall_iff, implies_true, and_true]
    refine ⟨⟨⟨wS, wB, wl⟩, ?_⟩, ⟨⟨by simp [Pos], by simp [Pos], rfl⟩, ?_⟩, ⟨⟨w2S, w2B, by simp [wl]⟩, ?_⟩, ⟨⟨wS, wB, wl⟩, ?_⟩⟩ <;> simp

/-- If the classes are in several tiles, `generate_simple` raises an exception: the distribution of the output does not fit the tensor of labels. -/
theorem C40_cross_entropy_generate_rejects {out : Moments} (hwf : out.value.WF) (hnd : out.value.shape ≠ []) (htile : out.value.basetile.headD 0 < out.value.shape.headD 0)
    (next : Nat) (redux : Bool) (scale : ℝ) : Throws (CrossEntropy.generate out next redux scale) := by
  obtain ⟨⟨vid, vs, vb⟩, og, oq⟩ := out
  cases vs with
  | nil => exact absurd rfl hnd
  | cons n S =>
    obtain ⟨w1, w2, w3⟩ := hwf
    cases vb with
    | nil => simp at w3
    | cons b B =>
      have wS : Pos S := fun i hi => w1 i (by simp [hi])
      have wB : Pos B := fun i hi => w2 i (by simp [hi])
      have wl : B.length = S.length := by simpa using w3
      have hb : 0 < b := w2 b (by simp)
      change b < n at htile
      unfold CrossEntropy.generate newTensorD
      have d1 : pyDrop (n :: S) 1 = S := rfl
      have d2 : pyDrop (b :: B) 1 = B := rfl
      simp only [d1, d2, newTensor_ok ⟨wS, wB, wl⟩, M.bind_ok]
      rw [bind_assoc]
      refine throws_pos ?_
      have hd : 1 ≤ (n - 1) / b := (Nat.le_div_iff_mul_le hb).2 (by omega)
      have hp : 0 < (gridOf S B).prod := (gridOf_pos S B).prod
      rw [Tensor.ntiles, Tensor.ntiles, Tensor.grid, Tensor.grid]
      simp only [gridOf_cons, List.prod_cons]
      nlinarith

/-- The hypotheses can be met: 5 classes, 3×2 labels in 2×2 tiles. -/
example (X Y : List Nat → ℝ) (v : ℝ) : ∃ (l : CrossEntropy ℝ) (s : Store ℝ), l.modelOutput.value.ntiles = 2 ∧ l.Fits 5 ∧
    (∀ T ∈ [l.modelOutput.value, l.y, l.val, l.maxsumexp, l.logsumexp], T.Ready s) ∧ l.modelOutput.grad.Ready s ∧ l.modelOutput.value.Holds s X ∧ l.y.Holds s Y ∧
    l.val.Holds s (fun _ => v) ∧ LabelsOk l.y 5 (fun _ : ℝ => 3) Y := by
  obtain ⟨l, -, h1, -, -, h2, h3⟩ := C40_cross_entropy_generate (out := ⟨⟨0, [5, 3, 2], [5, 2, 2]⟩, ⟨1, [5, 3, 2], [5, 2, 2]⟩, true⟩) ⟨rfl, rfl⟩ (by decide) ⟨rfl, rfl⟩
    (by decide) (next := 2) (by decide) true 1
  have h := storeOf_spec [(l.modelOutput.value, X), (l.modelOutput.grad, X), (l.y, Y), (l.val, fun _ => v), (l.maxsumexp, X), (l.logsumexp, X)]
    (by
      simp only [List.forall_mem_cons, List.not_mem_nil, IsEmpty.forall_iff, implies_true, and_true] at h3 ⊢
      rw [h1]
      exact ⟨by decide, by decide, h3.1.1, h3.2.1.1, h3.2.2.1.1, h3.2.2.2.1⟩) (by simpa using h2.ids)
  simp only [List.forall_mem_cons, List.not_mem_nil, IsEmpty.forall_iff, implies_true, and_true] at h
  refine ⟨l, _, by rw [h1]; rfl, h2, ?_, h.2.1.1, h.1.2, h.2.2.1.2, h.2.2.2.1.2, fun _ _ => by norm_num⟩
  simp only [List.forall_mem_cons, List.not_mem_nil, IsEmpty.forall_iff, implies_true, and_true]
  exact ⟨h.1.1, h.2.2.1.1, h.2.2.2.1.1, h.2.2.2.2.1.1, h.2.2.2.2.2.1⟩

end NNTile
