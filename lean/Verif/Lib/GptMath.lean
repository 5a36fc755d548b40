import Verif.Spec.Gpt2
import Verif.Lib.Contract
import Mathlib.Analysis.SpecialFunctions.Sqrt
import Mathlib.Analysis.SpecialFunctions.Exp
import Mathlib.Topology.Algebra.Order.Field
/-!
# Causality of the transformer, and the limit of large negative scores
-/
namespace NNTile
open Finset Filter

theorem linearR_at (E : Nat) (x w b : List Nat → ℝ) (v s n : Nat) :
    linearOut .R .noTrans 1 [E] x w b [v, s, n] = ∑ e ∈ range E, w [v, e] * x [e, s, n] + b [v] := by
  simp only [linearOut, List.take_succ_cons, List.take_zero, List.drop_succ_cons, List.drop_zero, sum_box1, opCat]
  rfl

theorem lnOut_at (E : Nat) (eps : ℝ) (ga be x : List Nat → ℝ) (e s n : Nat) :
    lnOut 0 E eps ga be x [e, s, n] = ga [e] * ((x [e, s, n] - (∑ k ∈ range E, x [k, s, n]) / E) *
      (1 / √((∑ k ∈ range E, (x [k, s, n] - (∑ k ∈ range E, x [k, s, n]) / E) ^ 2) / E + eps))) + be [e] := rfl

theorem gptEmbed_at (wte wpe : List Nat → ℝ) (tok pos : List Nat → Nat) (e s n : Nat) :
    gptEmbed wte wpe tok pos [e, s, n] = wte [e, tok [s, n]] + wpe [e, pos [s]] := rfl

/-! ### Causality -/

/-- Equal up to the position `j` in the element `n` of the batch. -/
def AgreeUpTo (j n : Nat) (x x' : List Nat → ℝ) : Prop := ∀ e s, s ≤ j → x [e, s, n] = x' [e, s, n]

variable {j n : Nat} {x x' y y' : List Nat → ℝ}

theorem AgreeUpTo.ln (h : AgreeUpTo j n x x') (E : Nat) (eps : ℝ) (ga be : List Nat → ℝ) : AgreeUpTo j n (lnOut 0 E eps ga be x) (lnOut 0 E eps ga be x') := by
  intro e s hs
  have hx : ∀ e, x [e, s, n] = x' [e, s, n] := fun e => h e s hs
  simp only [lnOut_at, hx]

theorem AgreeUpTo.lin (h : AgreeUpTo j n x x') (E : Nat) (w b : List Nat → ℝ) : AgreeUpTo j n (linearOut .R .noTrans 1 [E] x w b) (linearOut .R .noTrans 1 [E] x' w b) := by
  intro e s hs
  have hx : ∀ e, x [e, s, n] = x' [e, s, n] := fun e => h e s hs
  simp only [linearR_at, hx]

theorem AgreeUpTo.add (h : AgreeUpTo j n x x') (h' : AgreeUpTo j n y y') : AgreeUpTo j n (fun I => x I + y I) (fun I => x' I + y' I) :=
  fun e s hs => congrArg₂ _ (h e s hs) (h' e s hs)

theorem AgreeUpTo.map (h : AgreeUpTo j n x x') (f : ℝ → ℝ) : AgreeUpTo j n (fun I => f (x I)) (fun I => f (x' I)) :=
  fun e s hs => congrArg f (h e s hs)

theorem AgreeUpTo.attn (h : AgreeUpTo j n x x') (z : GptDims) (p : GptBlockP (List Nat → ℝ)) : AgreeUpTo j n (selfAttn z softCausal p x) (selfAttn z softCausal p x') := by
  intro e s hs
  have hp : ∀ (w b : List Nat → ℝ) d i h, i ≤ j → attnProj z.E w x b [d, i, n, h] = attnProj z.E w x' b [d, i, n, h] := by
    intro w b d i h' hi
    have hx : ∀ e, x [e, i, n] = x' [e, i, n] := fun e => h e i hi
    simp only [attnProj, hx]
  simp only [selfAttn, attnCombine]
  congr 1
  refine sum_congr rfl fun h' _ => sum_congr rfl fun d _ => congrArg _ ?_
  simp only [attnHeads]
  refine sum_congr rfl fun i _ => ?_
  simp only [softCausal]
  have hsc : ∀ i, i ≤ s → attnScore z.D (attnProj z.E p.wk x p.bk) (attnProj z.E p.wq x p.bq) [i, s, n, h'] =
      attnScore z.D (attnProj z.E p.wk x' p.bk) (attnProj z.E p.wq x' p.bq) [i, s, n, h'] := by
    intro i hi
    simp only [attnScore]
    refine congrArg (· / _) (sum_congr rfl fun d _ => ?_)
    rw [hp _ _ _ _ _ (by omega), hp _ _ _ _ _ hs]
  by_cases hi : i ≤ s
  · rw [if_pos hi, if_pos hi, hp _ _ _ _ _ (by omega), hsc i hi, sum_congr rfl fun i' hi' => by rw [hsc i' (by have := mem_range.1 hi'; omega)]]
  · rw [if_neg hi, if_neg hi, mul_zero, mul_zero]

theorem AgreeUpTo.block (h : AgreeUpTo j n x x') (z : GptDims) (p : GptBlockP (List Nat → ℝ)) : AgreeUpTo j n (gptBlockOut z softCausal x p) (gptBlockOut z softCausal x' p) := by
  have h1 := h.add ((h.ln z.E z.eps p.g1 p.b1).attn z p)
  exact h1.add ((((h1.ln z.E z.eps p.g2 p.b2).lin z.E p.w1 p.c1).map z.phi).lin z.inner p.w2 p.c2)

theorem AgreeUpTo.blocks (z : GptDims) : ∀ (ps : List (GptBlockP (List Nat → ℝ))) {x x' : List Nat → ℝ}, AgreeUpTo j n x x' →
    AgreeUpTo j n (ps.foldl (gptBlockOut z softCausal) x) (ps.foldl (gptBlockOut z softCausal) x')
  | [], _, _, h => h
  | p :: ps, _, _, h => AgreeUpTo.blocks z ps (h.block z p)

/-! ### The limit -/

/-- Convergence for all positions smaller than `S`. -/
def ConvTo (S : Nat) (x : ℝ → List Nat → ℝ) (y : List Nat → ℝ) : Prop := ∀ e s n, s < S → Tendsto (fun v => x v [e, s, n]) atBot (nhds (y [e, s, n]))

variable {S : Nat} {X X' : ℝ → List Nat → ℝ}

theorem ConvTo.ln (h : ConvTo S X y) (E : Nat) {eps : ℝ} (he : 0 < eps) (ga be : List Nat → ℝ) : ConvTo S (fun v => lnOut 0 E eps ga be (X v)) (lnOut 0 E eps ga be y) := by
  intro e s n hs
  have hx := fun e => h e s n hs
  simp only [lnOut_at]
  have hm : Tendsto (fun v => (∑ k ∈ range E, X v [k, s, n]) / E) atBot (nhds ((∑ k ∈ range E, y [k, s, n]) / E)) := (tendsto_finset_sum _ fun k _ => hx k).div_const _
  have hv : Tendsto (fun v => √((∑ k ∈ range E, (X v [k, s, n] - (∑ k ∈ range E, X v [k, s, n]) / E) ^ 2) / E + eps)) atBot
      (nhds √((∑ k ∈ range E, (y [k, s, n] - (∑ k ∈ range E, y [k, s, n]) / E) ^ 2) / E + eps)) :=
    (Real.continuous_sqrt.tendsto _).comp (((tendsto_finset_sum _ fun k _ => ((hx k).sub hm).pow 2).div_const _).add_const eps)
  have hp : √((∑ k ∈ range E, (y [k, s, n] - (∑ k ∈ range E, y [k, s, n]) / E) ^ 2) / E + eps) ≠ 0 := by
    refine (Real.sqrt_pos.2 ?_).ne'
    have : 0 ≤ (∑ k ∈ range E, (y [k, s, n] - (∑ k ∈ range E, y [k, s, n]) / E) ^ 2) / E := div_nonneg (sum_nonneg fun _ _ => sq_nonneg _) (Nat.cast_nonneg _)
    linarith
  exact ((((hx e).sub hm).mul (tendsto_const_nhds.div hv hp)).const_mul _).add_const _

theorem ConvTo.lin (h : ConvTo S X y) (E : Nat) (w b : List Nat → ℝ) : ConvTo S (fun v => linearOut .R .noTrans 1 [E] (X v) w b) (linearOut .R .noTrans 1 [E] y w b) := by
  intro e s n hs
  simp only [linearR_at]
  exact (tendsto_finset_sum _ fun k _ => (h k s n hs).const_mul _).add_const _

theorem ConvTo.add (h : ConvTo S X y) (h' : ConvTo S X' y') : ConvTo S (fun v I => X v I + X' v I) (fun I => y I + y' I) :=
  fun e s n hs => (h e s n hs).add (h' e s n hs)

theorem ConvTo.map (h : ConvTo S X y) {f : ℝ → ℝ} (hf : Continuous f) : ConvTo S (fun v I => f (X v I)) (fun I => f (y I)) :=
  fun e s n hs => (hf.tendsto _).comp (h e s n hs)

theorem ConvTo.attn {allowed : List Nat → Bool} (ha : ∀ i j, i < S → j < S → allowed [i, j] = decide (i ≤ j)) (h : ConvTo S X y) (z : GptDims) (hz : z.S = S)
    (p : GptBlockP (List Nat → ℝ)) : ConvTo S (fun v => selfAttn z (softAll S allowed v) p (X v)) (selfAttn z softCausal p y) := by
  subst hz
  intro e s n hs
  have hp : ∀ (w b : List Nat → ℝ) d i h', i < z.S → Tendsto (fun v => attnProj z.E w (X v) b [d, i, n, h']) atBot (nhds (attnProj z.E w y b [d, i, n, h'])) := by
    intro w b d i h' hi
    simp only [attnProj]
    exact (tendsto_finset_sum _ fun k _ => (h k i n hi).const_mul _).add_const _
  simp only [selfAttn, attnCombine]
  refine (tendsto_finset_sum _ fun h' _ => tendsto_finset_sum _ fun d _ => Tendsto.const_mul _ ?_).add_const _
  simp only [attnHeads]
  refine tendsto_finset_sum _ fun i hi => (hp _ _ _ _ _ (mem_range.1 hi)).mul ?_
  have hi := mem_range.1 hi
  have hsc : ∀ i, i < z.S → Tendsto (fun v => attnScore z.D (attnProj z.E p.wk (X v) p.bk) (attnProj z.E p.wq (X v) p.bq) [i, s, n, h']) atBot
      (nhds (attnScore z.D (attnProj z.E p.wk y p.bk) (attnProj z.E p.wq y p.bq) [i, s, n, h'])) := by
    intro i hi
    simp only [attnScore]
    exact (tendsto_finset_sum _ fun d _ => (hp _ _ _ _ _ hi).mul (hp _ _ _ _ _ hs)).div_const _
  have hex : ∀ i, i < z.S → Tendsto (fun v => Real.exp (attnMasked allowed v (attnScore z.D (attnProj z.E p.wk (X v) p.bk) (attnProj z.E p.wq (X v) p.bq)) [i, s, n, h'])) atBot
      (nhds (if i ≤ s then Real.exp (attnScore z.D (attnProj z.E p.wk y p.bk) (attnProj z.E p.wq y p.bq) [i, s, n, h']) else 0)) := by
    intro i hi
    simp only [attnMasked, ha i s hi hs]
    by_cases hc : i ≤ s
    · simp only [hc, decide_true, if_true]
      exact (Real.continuous_exp.tendsto _).comp (hsc i hi)
    · simp only [hc, decide_false, Bool.false_eq_true, if_false]
      exact Real.tendsto_exp_atBot
  have hsum : Tendsto (fun v => ∑ i' ∈ range z.S, Real.exp (attnMasked allowed v (attnScore z.D (attnProj z.E p.wk (X v) p.bk) (attnProj z.E p.wq (X v) p.bq)) [i', s, n, h'])) atBot
      (nhds (∑ i' ∈ range (s + 1), Real.exp (attnScore z.D (attnProj z.E p.wk y p.bk) (attnProj z.E p.wq y p.bq) [i', s, n, h']))) := by
    have e : ∑ i' ∈ range (s + 1), Real.exp (attnScore z.D (attnProj z.E p.wk y p.bk) (attnProj z.E p.wq y p.bq) [i', s, n, h']) =
        ∑ i' ∈ range z.S, if i' ≤ s then Real.exp (attnScore z.D (attnProj z.E p.wk y p.bk) (attnProj z.E p.wq y p.bq) [i', s, n, h']) else 0 := by
      rw [← sum_filter]
      refine sum_congr ?_ fun _ _ => rfl
      ext i'
      simp only [mem_range, mem_filter]
      omega
    rw [e]
    exact tendsto_finset_sum _ fun i' hi' => hex i' (mem_range.1 hi')
  have hpos : (∑ i' ∈ range (s + 1), Real.exp (attnScore z.D (attnProj z.E p.wk y p.bk) (attnProj z.E p.wq y p.bq) [i', s, n, h'])) ≠ 0 :=
    (sum_pos (fun _ _ => Real.exp_pos _) ⟨0, by simp⟩).ne'
  have := (hex i hi).div hsum hpos
  simp only [softAll, attnWeights, softCausal]
  by_cases hc : i ≤ s
  · rw [if_pos hc] at this ⊢
    exact this
  · rw [if_neg hc, zero_div] at this
    rw [if_neg hc]
    exact this

theorem ConvTo.block {allowed : List Nat → Bool} (ha : ∀ i j, i < S → j < S → allowed [i, j] = decide (i ≤ j)) (h : ConvTo S X y) (z : GptDims) (hz : z.S = S) (he : 0 < z.eps)
    (hphi : Continuous z.phi) (p : GptBlockP (List Nat → ℝ)) : ConvTo S (fun v => gptBlockOut z (softAll S allowed v) (X v) p) (gptBlockOut z softCausal y p) := by
  have h1 := h.add ((h.ln z.E he p.g1 p.b1).attn ha z hz p)
  exact h1.add ((((h1.ln z.E he p.g2 p.b2).lin z.E p.w1 p.c1).map hphi).lin z.inner p.w2 p.c2)

theorem ConvTo.blocks {allowed : List Nat → Bool} (ha : ∀ i j, i < S → j < S → allowed [i, j] = decide (i ≤ j)) (z : GptDims) (hz : z.S = S) (he : 0 < z.eps)
    (hphi : Continuous z.phi) : ∀ (ps : List (GptBlockP (List Nat → ℝ))) {X : ℝ → List Nat → ℝ} {y : List Nat → ℝ}, ConvTo S X y →
    ConvTo S (fun v => ps.foldl (gptBlockOut z (softAll S allowed v)) (X v)) (ps.foldl (gptBlockOut z softCausal) y)
  | [], _, _, h => h
  | p :: ps, _, _, h => ConvTo.blocks ha z hz he hphi ps (h.block ha z hz he hphi p)

end NNTile
