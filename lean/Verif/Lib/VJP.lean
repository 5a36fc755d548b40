import Verif.Lib.Network
import Mathlib.Analysis.Calculus.Deriv.Mul
/-!
# The transposed Jacobian over several operands from the gradients over each operand
-/
namespace NNTile
open Finset

theorem sum_map_single {ins : List Moments} (hn : (ins.map fun m => m.value.id).Nodup) {m : Moments} (hm : m ∈ ins) (f : Moments → ℝ)
    (h0 : ∀ m' ∈ ins, m'.value.id ≠ m.value.id → f m' = 0) : (ins.map f).sum = f m := by
  induction ins with
  | nil => simp at hm
  | cons a L ih =>
    rw [List.map_cons, List.nodup_cons] at hn
    rw [List.map_cons, List.sum_cons]
    rcases List.mem_cons.1 hm with rfl | hm
    · rw [sum_map_zero_of, add_zero]
      intro b hb
      refine h0 b (by simp [hb]) fun e => hn.1 (List.mem_map.2 ⟨b, hb, e⟩)
    · rw [h0 a (by simp) (fun e => hn.1 (List.mem_map.2 ⟨m, hm, e.symm⟩)), zero_add]
      exact ih hn.2 hm fun m' hm' => h0 m' (by simp [hm'])

theorem isVJP_of_isGrad {ins : List Moments} {Sy : List Nat} {F : Env → List Nat → ℝ} {env : Env} {dy : List Nat → ℝ} {g : Env}
    (hn : (ins.map fun m => m.value.id).Nodup) (L : Nat → (List Nat → ℝ) → List Nat → ℝ)
    (L0 : ∀ m ∈ ins, ∀ I ∈ box Sy, L m.value.id (fun _ => 0) I = 0)
    (hL : ∀ c h, CurveAt ins env c h → ∀ I ∈ box Sy,
      HasDerivAt (fun t => F (c t) I) ((ins.map fun m => if m.gradRequired then L m.value.id (h m.value.id) I else 0).sum) 0)
    (hg : ∀ m ∈ ins, m.gradRequired = true →
      IsGrad m.value.shape Sy (fun x => F (Function.update env m.value.id x)) (env m.value.id) dy (g m.value.id)) :
    IsVJP ins Sy F env dy g := by
  have key : ∀ m ∈ ins, m.gradRequired = true → ∀ h : List Nat → ℝ,
      ∑ I ∈ box Sy, dy I * L m.value.id h I = ∑ J ∈ box m.value.shape, g m.value.id J * h J := by
    intro m hm hr h
    have h1 := hg m hm hr h
    have hcv : CurveAt ins env (fun t => Function.update env m.value.id (fun J => env m.value.id J + t * h J)) (Function.update (fun _ _ => 0) m.value.id h) := by
      intro m' hm'
      by_cases e : m'.value.id = m.value.id
      · have : m' = m := List.inj_on_of_nodup_map hn hm' hm e
        subst this
        simp only [Function.update_self]
        refine ⟨by funext J; simp, fun _ J _ => ?_, fun hf => by rw [hr] at hf; cases hf⟩
        simpa using ((hasDerivAt_id (0 : ℝ)).mul_const (h J)).const_add (env m'.value.id J)
      · simp only [Function.update_of_ne e]
        exact ⟨trivial, fun _ J _ => hasDerivAt_const _ _, fun _ _ => trivial⟩
    have h2 := HasDerivAt.fun_sum (u := box Sy) fun I hI => (hL _ _ hcv I hI).const_mul (dy I)
    have h3 := h1.unique h2
    rw [h3]
    refine sum_congr rfl fun I hI => ?_
    rw [sum_map_single hn hm, if_pos hr, Function.update_self]
    intro m' hm' e
    rw [Function.update_of_ne e]
    split
    · exact L0 m' hm' I hI
    · rfl
  intro c h hc
  refine ⟨_, fun I hI => hL c h hc I hI, ?_⟩
  have : ∀ K : List Moments, (∀ m ∈ K, m ∈ ins) →
      ∑ I ∈ box Sy, dy I * (K.map fun m => if m.gradRequired then L m.value.id (h m.value.id) I else 0).sum = dotGrads K g h := by
    intro K
    induction K with
    | nil => simp [dotGrads]
    | cons m K ih =>
      intro hK
      simp only [List.map_cons, List.sum_cons, mul_add, sum_add_distrib]
      rw [ih fun m' hm' => hK m' (by simp [hm'])]
      unfold dotGrads
      rw [List.map_cons, List.sum_cons]
      congr 1
      by_cases hr : m.gradRequired = true
      · simp only [if_pos hr]
        exact key m (hK m (by simp)) hr _
      · simp only [if_neg hr, mul_zero, sum_const_zero]
  exact this ins fun m hm => hm

/-- The velocity of a curve, also for tensors which do not require a gradient. -/
theorem CurveAt.deriv {ins : List Moments} {env : Env} {c : ℝ → Env} {h : Env} (hc : CurveAt ins env c h) {m : Moments} (hm : m ∈ ins) {J : List Nat}
    (hJ : J ∈ box m.value.shape) : HasDerivAt (fun t => c t m.value.id J) (if m.gradRequired then h m.value.id J else 0) 0 := by
  split
  · rename_i hr
    exact (hc m hm).2.1 hr J hJ
  · rename_i hr
    simp only [(hc m hm).2.2 (by simpa using hr)]
    exact hasDerivAt_const _ _

end NNTile
