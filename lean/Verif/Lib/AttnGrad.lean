import Verif.Lib.Contract
import Verif.Spec.Attention
import Mathlib.Analysis.SpecialFunctions.ExpDeriv
import Mathlib.Analysis.Calculus.Deriv.Inv
import Mathlib.Analysis.Calculus.Deriv.Mul
import Mathlib.Tactic.FieldSimp
/-!
# Derivatives and adjoints of the parts of attention
-/
namespace NNTile
open Finset
noncomputable section

/-- A curve of tensors of shape `S` through `f0` with velocity `f'`. -/
def Vel (S : List Nat) (f : ℝ → List Nat → ℝ) (f0 f' : List Nat → ℝ) : Prop :=
  f 0 = f0 ∧ ∀ J ∈ box S, HasDerivAt (fun t => f t J) (f' J) 0

/-! ### Projection -/

def projD (E : Nat) (w x w' x' b' : List Nat → ℝ) : List Nat → ℝ
  | [d, s, n, h] => ∑ e ∈ range E, (w' [h, d, e] * x [e, s, n] + w [h, d, e] * x' [e, s, n]) + b' [d, h]
  | _ => 0

def projGW (S B : Nat) (dp x : List Nat → ℝ) : List Nat → ℝ
  | [h, d, e] => ∑ s ∈ range S, ∑ n ∈ range B, dp [d, s, n, h] * x [e, s, n]
  | _ => 0

def projGX (H D : Nat) (w dp : List Nat → ℝ) : List Nat → ℝ
  | [e, s, n] => ∑ h ∈ range H, ∑ d ∈ range D, w [h, d, e] * dp [d, s, n, h]
  | _ => 0

def fiberG (S : List Nat) (b : Nat) (dp : List Nat → ℝ) (I : List Nat) : ℝ := ∑ J ∈ (box S).filter (fun J => fiberIdx 0 b J = I), dp J

theorem in2 {a b i j : Nat} (hi : i < a) (hj : j < b) : [i, j] ∈ box [a, b] := mem_box.2 ⟨hi, hj, trivial⟩
theorem in1 {a i : Nat} (hi : i < a) : [i] ∈ box [a] := mem_box.2 ⟨hi, trivial⟩
theorem in3 {a b c i j k : Nat} (hi : i < a) (hj : j < b) (hk : k < c) : [i, j, k] ∈ box [a, b, c] := mem_box.2 ⟨hi, hj, hk, trivial⟩
theorem in4 {a b c d i j k l : Nat} (hi : i < a) (hj : j < b) (hk : k < c) (hl : l < d) : [i, j, k, l] ∈ box [a, b, c, d] :=
  mem_box.2 ⟨hi, hj, hk, hl, trivial⟩

theorem proj_vel {E S B H D : Nat} {w x b : ℝ → List Nat → ℝ} {w0 w' x0 x' b0 b' : List Nat → ℝ} (hw : Vel [H, D, E] w w0 w') (hx : Vel [E, S, B] x x0 x')
    (hb : Vel [D, H] b b0 b') : Vel [D, S, B, H] (fun t => attnProj E (w t) (x t) (b t)) (attnProj E w0 x0 b0) (projD E w0 x0 w' x' b') := by
  refine ⟨by simp only [hw.1, hx.1, hb.1], fun J hJ => ?_⟩
  obtain ⟨d, s, n, h, hd, hs, hn, hh, rfl⟩ := mem_box4 hJ
  simp only [attnProj, projD]
  refine HasDerivAt.fun_add (HasDerivAt.fun_sum fun e he => ?_) (hb.2 _ (in2 hd hh))
  have he := mem_range.1 he
  have := (hw.2 _ (in3 hh hd he)).fun_mul (hx.2 _ (in3 he hs hn))
  rwa [hw.1, hx.1] at this

theorem proj_adjoint {E S B H D : Nat} (w x w' x' b' dp : List Nat → ℝ) :
    ∑ J ∈ box [D, S, B, H], dp J * projD E w x w' x' b' J = ∑ J ∈ box [H, D, E], projGW S B dp x J * w' J +
      ∑ J ∈ box [E, S, B], projGX H D w dp J * x' J + ∑ J ∈ box [D, H], fiberG [D, S, B, H] 1 dp J * b' J := by
  have e0 : ∑ J ∈ box [D, S, B, H], dp J * projD E w x w' x' b' J = ∑ J ∈ box [D, S, B, H], dp J * projD E w x w' (fun _ => 0) (fun _ => 0) J +
      ∑ J ∈ box [D, S, B, H], dp J * projD E w x (fun _ => 0) x' (fun _ => 0) J + ∑ J ∈ box [D, S, B, H], dp J * b' (fiberIdx 0 1 J) := by
    rw [← sum_add_distrib, ← sum_add_distrib]
    refine sum_congr rfl fun J hJ => ?_
    obtain ⟨d, s, n, h, hd, hs, hn, hh, rfl⟩ := mem_box4 hJ
    simp only [projD, fiberIdx, zero_mul, mul_zero, add_zero, zero_add, sum_add_distrib]
    simp
    ring
  have rot : ∀ F : List Nat → ℝ, ∑ J ∈ box [D, S, B, H], dp J * F J =
      ∑ Z ∈ box ([H, D] ++ [S, B] ++ []), dp (Z.drop 1 ++ Z.take 1) * F (Z.drop 1 ++ Z.take 1) := by
    intro F
    refine sum_box_swap [D, S, B] [H] (fun J => dp J * F J) _ fun I hI J hJ => ?_
    obtain ⟨h, hh, rfl⟩ := mem_box1 hJ
    rfl
  rw [e0, rot, rot]
  congr 1
  · congr 1
    · refine contract_adjoint_left (M := [H, D]) (K := [E]) (N := [S, B]) (R := []) .noTrans .noTrans 1 (y := x) ?_ ?_
      · intro I hI J hJ b hb
        obtain ⟨h, d, hh, hd, rfl⟩ := mem_box2 hI
        obtain ⟨s, n, hs, hn, rfl⟩ := mem_box2 hJ
        obtain rfl := mem_box_nil hb
        simp [projD, sum_box1]
      · intro I hI J hJ b hb
        obtain ⟨h, d, hh, hd, rfl⟩ := mem_box2 hI
        obtain ⟨e, he, rfl⟩ := mem_box1 hJ
        obtain rfl := mem_box_nil hb
        simp [projGW, sum_box2]
    · refine contract_adjoint_right (M := [H, D]) (K := [E]) (N := [S, B]) (R := []) .noTrans .noTrans 1 (x := w) ?_ ?_
      · intro I hI J hJ b hb
        obtain ⟨h, d, hh, hd, rfl⟩ := mem_box2 hI
        obtain ⟨s, n, hs, hn, rfl⟩ := mem_box2 hJ
        obtain rfl := mem_box_nil hb
        simp [projD, sum_box1]
      · intro I hI J hJ b hb
        obtain ⟨e, he, rfl⟩ := mem_box1 hI
        obtain ⟨s, n, hs, hn, rfl⟩ := mem_box2 hJ
        obtain rfl := mem_box_nil hb
        simp [projGX, sum_box2]
  · refine fiber_adjoint (fun J hJ => ?_) dp b'
    obtain ⟨d, s, n, h, hd, hs, hn, hh, rfl⟩ := mem_box4 hJ
    exact in2 hd hh

/-! ### Scores -/

def scoreD (D : Nat) (k q k' q' : List Nat → ℝ) : List Nat → ℝ
  | [i, j, n, h] => (∑ d ∈ range D, (k' [d, i, n, h] * q [d, j, n, h] + k [d, i, n, h] * q' [d, j, n, h])) / √D
  | _ => 0

def scoreGK (D S : Nat) (q ds : List Nat → ℝ) : List Nat → ℝ
  | [d, i, n, h] => 1 / √D * ∑ j ∈ range S, q [d, j, n, h] * ds [i, j, n, h]
  | _ => 0

def scoreGQ (D S : Nat) (k ds : List Nat → ℝ) : List Nat → ℝ
  | [d, j, n, h] => 1 / √D * ∑ i ∈ range S, k [d, i, n, h] * ds [i, j, n, h]
  | _ => 0

theorem score_vel {S B H D : Nat} {k q : ℝ → List Nat → ℝ} {k0 k' q0 q' : List Nat → ℝ} (hk : Vel [D, S, B, H] k k0 k') (hq : Vel [D, S, B, H] q q0 q') :
    Vel [S, S, B, H] (fun t => attnScore D (k t) (q t)) (attnScore D k0 q0) (scoreD D k0 q0 k' q') := by
  refine ⟨by simp only [hk.1, hq.1], fun J hJ => ?_⟩
  obtain ⟨i, j, n, h, hi, hj, hn, hh, rfl⟩ := mem_box4 hJ
  simp only [attnScore, scoreD]
  refine (HasDerivAt.fun_sum fun d hd => ?_).div_const _
  have hd := mem_range.1 hd
  have := (hk.2 _ (in4 hd hi hn hh)).fun_mul (hq.2 _ (in4 hd hj hn hh))
  rwa [hk.1, hq.1] at this

theorem score_adjoint {S B H D : Nat} (k q k' q' ds : List Nat → ℝ) :
    ∑ J ∈ box [S, S, B, H], ds J * scoreD D k q k' q' J = ∑ J ∈ box [D, S, B, H], scoreGK D S q ds J * k' J +
      ∑ J ∈ box [D, S, B, H], scoreGQ D S k ds J * q' J := by
  have e0 : ∑ J ∈ box [S, S, B, H], ds J * scoreD D k q k' q' J = ∑ J ∈ box [S, S, B, H], ds J * scoreD D k q k' (fun _ => 0) J +
      ∑ J ∈ box [S, S, B, H], ds J * scoreD D k q (fun _ => 0) q' J := by
    rw [← sum_add_distrib]
    refine sum_congr rfl fun J hJ => ?_
    obtain ⟨i, j, n, h, hi, hj, hn, hh, rfl⟩ := mem_box4 hJ
    simp only [scoreD, zero_mul, mul_zero, add_zero, zero_add, sum_add_distrib]
    ring
  rw [e0]
  congr 1
  · refine contract_adjoint_left (M := [S]) (K := [D]) (N := [S]) (R := [B, H]) .trans .noTrans (1 / √D) (y := q) ?_ ?_
    · intro I hI J hJ b hb
      obtain ⟨i, hi, rfl⟩ := mem_box1 hI
      obtain ⟨j, hj, rfl⟩ := mem_box1 hJ
      obtain ⟨n, h, hn, hh, rfl⟩ := mem_box2 hb
      simp [scoreD, sum_box1]
      ring
    · intro I hI J hJ b hb
      obtain ⟨i, hi, rfl⟩ := mem_box1 hI
      obtain ⟨d, hd, rfl⟩ := mem_box1 hJ
      obtain ⟨n, h, hn, hh, rfl⟩ := mem_box2 hb
      simp [scoreGK, sum_box1, mul_comm]
  · refine contract_adjoint_right (M := [S]) (K := [D]) (N := [S]) (R := [B, H]) .trans .noTrans (1 / √D) (x := k) ?_ ?_
    · intro I hI J hJ b hb
      obtain ⟨i, hi, rfl⟩ := mem_box1 hI
      obtain ⟨j, hj, rfl⟩ := mem_box1 hJ
      obtain ⟨n, h, hn, hh, rfl⟩ := mem_box2 hb
      simp [scoreD, sum_box1]
      ring
    · intro I hI J hJ b hb
      obtain ⟨d, hd, rfl⟩ := mem_box1 hI
      obtain ⟨j, hj, rfl⟩ := mem_box1 hJ
      obtain ⟨n, h, hn, hh, rfl⟩ := mem_box2 hb
      simp [scoreGQ, sum_box1]

/-! ### Mask -/

theorem masked_vel {S B H : Nat} {s : ℝ → List Nat → ℝ} {s0 s' : List Nat → ℝ} (allowed : List Nat → Bool) (val : ℝ) (hs : Vel [S, S, B, H] s s0 s') :
    Vel [S, S, B, H] (fun t => attnMasked allowed val (s t)) (attnMasked allowed val s0) (attnMasked allowed 0 s') := by
  refine ⟨by simp only [hs.1], fun J hJ => ?_⟩
  obtain ⟨i, j, n, h, hi, hj, hn, hh, rfl⟩ := mem_box4 hJ
  simp only [attnMasked]
  split
  · exact hs.2 _ hJ
  · exact hasDerivAt_const _ _

theorem masked_adjoint {S B H : Nat} (allowed : List Nat → Bool) (s' dm : List Nat → ℝ) :
    ∑ J ∈ box [S, S, B, H], dm J * attnMasked allowed 0 s' J = ∑ J ∈ box [S, S, B, H], attnMasked allowed 0 dm J * s' J := by
  refine sum_congr rfl fun J hJ => ?_
  obtain ⟨i, j, n, h, hi, hj, hn, hh, rfl⟩ := mem_box4 hJ
  simp only [attnMasked]
  split <;> simp

/-! ### Softmax -/

def softD (S : Nat) (a s' : List Nat → ℝ) : List Nat → ℝ
  | [i, j, n, h] => a [i, j, n, h] * (s' [i, j, n, h] - ∑ i' ∈ range S, a [i', j, n, h] * s' [i', j, n, h])
  | _ => 0

theorem soft_vel {S B H : Nat} {s : ℝ → List Nat → ℝ} {s0 s' : List Nat → ℝ} (hs : Vel [S, S, B, H] s s0 s') :
    Vel [S, S, B, H] (fun t => attnWeights S (s t)) (attnWeights S s0) (softD S (attnWeights S s0) s') := by
  refine ⟨by simp only [hs.1], fun J hJ => ?_⟩
  obtain ⟨i, j, n, h, hi, hj, hn, hh, rfl⟩ := mem_box4 hJ
  simp only [attnWeights, softD]
  have h1 : ∀ i', i' < S → HasDerivAt (fun t => Real.exp (s t [i', j, n, h])) (Real.exp (s0 [i', j, n, h]) * s' [i', j, n, h]) 0 := by
    intro i' hi'
    have := (hs.2 _ (in4 hi' hj hn hh)).exp
    rwa [hs.1] at this
  have h2 : HasDerivAt (fun t => ∑ i' ∈ range S, Real.exp (s t [i', j, n, h])) (∑ i' ∈ range S, Real.exp (s0 [i', j, n, h]) * s' [i', j, n, h]) 0 :=
    HasDerivAt.fun_sum fun i' hi' => h1 i' (mem_range.1 hi')
  have hp : 0 < ∑ i' ∈ range S, Real.exp (s0 [i', j, n, h]) := sum_pos (fun _ _ => Real.exp_pos _) ⟨i, mem_range.2 hi⟩
  have := (h1 i hi).fun_div h2 (by rw [hs.1]; exact hp.ne')
  rw [hs.1] at this
  refine this.congr_deriv ?_
  have e : ∑ i' ∈ range S, Real.exp (s0 [i', j, n, h]) / (∑ i' ∈ range S, Real.exp (s0 [i', j, n, h])) * s' [i', j, n, h] =
      (∑ i' ∈ range S, Real.exp (s0 [i', j, n, h]) * s' [i', j, n, h]) / ∑ i' ∈ range S, Real.exp (s0 [i', j, n, h]) := by
    rw [sum_div]
    exact sum_congr rfl fun i' _ => by ring
  rw [e]
  field_simp

theorem soft_adjoint {S B H : Nat} (a s' da : List Nat → ℝ) :
    ∑ J ∈ box [S, S, B, H], da J * softD S a s' J = ∑ J ∈ box [S, S, B, H], softD S a da J * s' J := by
  have swap : ∀ F : List Nat → ℝ, ∑ J ∈ box [S, S, B, H], F J = ∑ J ∈ box [S, B, H], ∑ i ∈ range S, F (i :: J) := by
    intro F
    rw [sum_box_cons, sum_comm]
  rw [swap, swap]
  refine sum_congr rfl fun J hJ => ?_
  obtain ⟨j, n, h, hj, hn, hh, rfl⟩ := mem_box3 hJ
  simp only [softD, mul_sub, sub_mul, sum_sub_distrib]
  congr 1
  · exact sum_congr rfl fun i _ => by ring
  · have e1 : ∀ i ∈ range S, da [i, j, n, h] * (a [i, j, n, h] * ∑ i' ∈ range S, a [i', j, n, h] * s' [i', j, n, h]) =
        a [i, j, n, h] * da [i, j, n, h] * ∑ i' ∈ range S, a [i', j, n, h] * s' [i', j, n, h] := fun i _ => by ring
    have e2 : ∀ i ∈ range S, a [i, j, n, h] * (∑ i' ∈ range S, a [i', j, n, h] * da [i', j, n, h]) * s' [i, j, n, h] =
        a [i, j, n, h] * s' [i, j, n, h] * ∑ i' ∈ range S, a [i', j, n, h] * da [i', j, n, h] := fun i _ => by ring
    rw [sum_congr rfl e1, sum_congr rfl e2, ← sum_mul, ← sum_mul, mul_comm]

/-! ### Results of the heads -/

def headsD (S : Nat) (v a v' a' : List Nat → ℝ) : List Nat → ℝ
  | [d, j, n, h] => ∑ i ∈ range S, (v' [d, i, n, h] * a [i, j, n, h] + v [d, i, n, h] * a' [i, j, n, h])
  | _ => 0

def headsGV (S : Nat) (db a : List Nat → ℝ) : List Nat → ℝ
  | [d, i, n, h] => ∑ j ∈ range S, db [d, j, n, h] * a [i, j, n, h]
  | _ => 0

def headsGA (D : Nat) (v db : List Nat → ℝ) : List Nat → ℝ
  | [i, j, n, h] => ∑ d ∈ range D, v [d, i, n, h] * db [d, j, n, h]
  | _ => 0

theorem heads_vel {S B H D : Nat} {v a : ℝ → List Nat → ℝ} {v0 v' a0 a' : List Nat → ℝ} (hv : Vel [D, S, B, H] v v0 v') (ha : Vel [S, S, B, H] a a0 a') :
    Vel [D, S, B, H] (fun t => attnHeads S (v t) (a t)) (attnHeads S v0 a0) (headsD S v0 a0 v' a') := by
  refine ⟨by simp only [hv.1, ha.1], fun J hJ => ?_⟩
  obtain ⟨d, j, n, h, hd, hj, hn, hh, rfl⟩ := mem_box4 hJ
  simp only [attnHeads, headsD]
  refine HasDerivAt.fun_sum fun i hi => ?_
  have hi := mem_range.1 hi
  have := (hv.2 _ (in4 hd hi hn hh)).fun_mul (ha.2 _ (in4 hi hj hn hh))
  rwa [hv.1, ha.1] at this

theorem heads_adjoint {S B H D : Nat} (v a v' a' db : List Nat → ℝ) :
    ∑ J ∈ box [D, S, B, H], db J * headsD S v a v' a' J = ∑ J ∈ box [D, S, B, H], headsGV S db a J * v' J +
      ∑ J ∈ box [S, S, B, H], headsGA D v db J * a' J := by
  have e0 : ∑ J ∈ box [D, S, B, H], db J * headsD S v a v' a' J = ∑ J ∈ box [D, S, B, H], db J * headsD S v a v' (fun _ => 0) J +
      ∑ J ∈ box [D, S, B, H], db J * headsD S v a (fun _ => 0) a' J := by
    rw [← sum_add_distrib]
    refine sum_congr rfl fun J hJ => ?_
    obtain ⟨d, j, n, h, hd, hj, hn, hh, rfl⟩ := mem_box4 hJ
    simp only [headsD, zero_mul, mul_zero, add_zero, zero_add, sum_add_distrib]
    ring
  rw [e0]
  congr 1
  · refine contract_adjoint_left (M := [D]) (K := [S]) (N := [S]) (R := [B, H]) .noTrans .noTrans 1 (y := a) ?_ ?_
    · intro I hI J hJ b hb
      obtain ⟨i, hi, rfl⟩ := mem_box1 hI
      obtain ⟨j, hj, rfl⟩ := mem_box1 hJ
      obtain ⟨n, h, hn, hh, rfl⟩ := mem_box2 hb
      simp [headsD, sum_box1]
    · intro I hI J hJ b hb
      obtain ⟨i, hi, rfl⟩ := mem_box1 hI
      obtain ⟨d, hd, rfl⟩ := mem_box1 hJ
      obtain ⟨n, h, hn, hh, rfl⟩ := mem_box2 hb
      simp [headsGV, sum_box1]
  · refine contract_adjoint_right (M := [D]) (K := [S]) (N := [S]) (R := [B, H]) .noTrans .noTrans 1 (x := v) ?_ ?_
    · intro I hI J hJ b hb
      obtain ⟨i, hi, rfl⟩ := mem_box1 hI
      obtain ⟨j, hj, rfl⟩ := mem_box1 hJ
      obtain ⟨n, h, hn, hh, rfl⟩ := mem_box2 hb
      simp [headsD, sum_box1]
    · intro I hI J hJ b hb
      obtain ⟨d, hd, rfl⟩ := mem_box1 hI
      obtain ⟨j, hj, rfl⟩ := mem_box1 hJ
      obtain ⟨n, h, hn, hh, rfl⟩ := mem_box2 hb
      simp [headsGA, sum_box1]

/-! ### Output -/

def combD (H D : Nat) (w b w' b' bo' : List Nat → ℝ) : List Nat → ℝ
  | [e, j, n] => ∑ h ∈ range H, ∑ d ∈ range D, (w' [e, h, d] * b [d, j, n, h] + w [e, h, d] * b' [d, j, n, h]) + bo' [e]
  | _ => 0

def combGW (S B : Nat) (dy b : List Nat → ℝ) : List Nat → ℝ
  | [e, h, d] => ∑ j ∈ range S, ∑ n ∈ range B, dy [e, j, n] * b [d, j, n, h]
  | _ => 0

def combGB (E : Nat) (w dy : List Nat → ℝ) : List Nat → ℝ
  | [d, j, n, h] => ∑ e ∈ range E, w [e, h, d] * dy [e, j, n]
  | _ => 0

theorem comb_vel {E S B H D : Nat} {w b bo : ℝ → List Nat → ℝ} {w0 w' b0 b' bo0 bo' : List Nat → ℝ} (hw : Vel [E, H, D] w w0 w') (hb : Vel [D, S, B, H] b b0 b')
    (ho : Vel [E] bo bo0 bo') : Vel [E, S, B] (fun t => attnCombine H D (w t) (b t) (bo t)) (attnCombine H D w0 b0 bo0) (combD H D w0 b0 w' b' bo') := by
  refine ⟨by simp only [hw.1, hb.1, ho.1], fun J hJ => ?_⟩
  obtain ⟨e, j, n, he, hj, hn, rfl⟩ := mem_box3 hJ
  simp only [attnCombine, combD]
  refine HasDerivAt.fun_add (HasDerivAt.fun_sum fun h hh => HasDerivAt.fun_sum fun d hd => ?_) (ho.2 _ (in1 he))
  have hh := mem_range.1 hh
  have hd := mem_range.1 hd
  have := (hw.2 _ (in3 he hh hd)).fun_mul (hb.2 _ (in4 hd hj hn hh))
  rwa [hw.1, hb.1] at this

theorem comb_adjoint {E S B H D : Nat} (w b w' b' bo' dy : List Nat → ℝ) :
    ∑ J ∈ box [E, S, B], dy J * combD H D w b w' b' bo' J = ∑ J ∈ box [E, H, D], combGW S B dy b J * w' J +
      ∑ J ∈ box [D, S, B, H], combGB E w dy J * b' J + ∑ J ∈ box [E], fiberG [E, S, B] 0 dy J * bo' J := by
  have e0 : ∑ J ∈ box [E, S, B], dy J * combD H D w b w' b' bo' J = ∑ J ∈ box [E, S, B], dy J * combD H D w b w' (fun _ => 0) (fun _ => 0) J +
      ∑ J ∈ box [E, S, B], dy J * combD H D w b (fun _ => 0) b' (fun _ => 0) J + ∑ J ∈ box [E, S, B], dy J * bo' (fiberIdx 0 0 J) := by
    rw [← sum_add_distrib, ← sum_add_distrib]
    refine sum_congr rfl fun J hJ => ?_
    obtain ⟨e, j, n, he, hj, hn, rfl⟩ := mem_box3 hJ
    simp only [combD, fiberIdx, zero_mul, mul_zero, add_zero, zero_add, sum_add_distrib]
    simp
    ring
  have rot : ∀ F : List Nat → ℝ, ∑ J ∈ box [D, S, B, H], F J = ∑ Z ∈ box ([H, D] ++ [S, B] ++ []), F (Z.drop 1 ++ Z.take 1) := by
    intro F
    refine sum_box_swap [D, S, B] [H] F _ fun I hI J hJ => ?_
    obtain ⟨h, hh, rfl⟩ := mem_box1 hJ
    rfl
  rw [e0, rot]
  congr 1
  · congr 1
    · refine contract_adjoint_left (M := [E]) (K := [H, D]) (N := [S, B]) (R := []) .noTrans .noTrans 1 (y := fun Z => b (Z.drop 1 ++ Z.take 1)) ?_ ?_
      · intro I hI J hJ b hb
        obtain ⟨e, he, rfl⟩ := mem_box1 hI
        obtain ⟨s, n, hs, hn, rfl⟩ := mem_box2 hJ
        obtain rfl := mem_box_nil hb
        simp [combD, sum_box2]
      · intro I hI J hJ b hb
        obtain ⟨e, he, rfl⟩ := mem_box1 hI
        obtain ⟨h, d, hh, hd, rfl⟩ := mem_box2 hJ
        obtain rfl := mem_box_nil hb
        simp [combGW, sum_box2]
    · refine contract_adjoint_right (M := [E]) (K := [H, D]) (N := [S, B]) (R := []) .noTrans .noTrans 1 (x := w) (y' := fun Z => b' (Z.drop 1 ++ Z.take 1))
        (gy := fun Z => combGB E w dy (Z.drop 1 ++ Z.take 1)) ?_ ?_
      · intro I hI J hJ b hb
        obtain ⟨e, he, rfl⟩ := mem_box1 hI
        obtain ⟨s, n, hs, hn, rfl⟩ := mem_box2 hJ
        obtain rfl := mem_box_nil hb
        simp [combD, sum_box2]
      · intro I hI J hJ b hb
        obtain ⟨h, d, hh, hd, rfl⟩ := mem_box2 hI
        obtain ⟨s, n, hs, hn, rfl⟩ := mem_box2 hJ
        obtain rfl := mem_box_nil hb
        simp [combGB, sum_box1]
  · refine fiber_adjoint (fun J hJ => ?_) dy bo'
    obtain ⟨e, j, n, he, hj, hn, rfl⟩ := mem_box3 hJ
    exact in1 he

end
end NNTile
