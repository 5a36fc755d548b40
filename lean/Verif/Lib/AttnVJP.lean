import Verif.Lib.AttnBackward
/-!
# The gradients of attention are the product of the transposed Jacobian
-/
namespace NNTile
open Finset
noncomputable section

/-- The velocity of a tensor, zero if it does not require a gradient. -/
def velOf (m : Moments) (h : Env) : List Nat → ℝ := fun J => if m.gradRequired then h m.value.id J else 0

def velOpt (m : Option Moments) (h : Env) : List Nat → ℝ := fun J => match m with
  | some b => velOf b h J
  | none => 0

theorem curve_vel {ins : List Moments} {env : Env} {c : ℝ → Env} {h : Env} (hc : CurveAt ins env c h) {m : Moments} (hm : m ∈ ins) {S : List Nat}
    (hS : m.value.shape = S) : Vel S (fun t => c t m.value.id) (env m.value.id) (velOf m h) :=
  ⟨(hc m hm).1, fun J hJ => hc.deriv hm (by rwa [hS])⟩

theorem curve_velOpt {ins : List Moments} {env : Env} {c : ℝ → Env} {h : Env} (hc : CurveAt ins env c h) {o : Option Moments} (hm : ∀ m, o = some m → m ∈ ins) {S : List Nat}
    (hS : ∀ m, o = some m → m.value.shape = S) : Vel S (fun t => biasAt o (c t)) (biasAt o env) (velOpt o h) := by
  cases o with
  | none => exact ⟨rfl, fun J _ => hasDerivAt_const _ _⟩
  | some b => exact curve_vel hc (hm b rfl) (hS b rfl)

section
variable {ins : List Moments} (hn : (ins.map fun m => m.value.id).Nodup) (h : Env)
include hn

theorem dot_gOf {m : Moments} (hm : m ∈ ins) {S : List Nat} (hS : m.value.shape = S) (c : List Nat → ℝ) :
    dotGrads ins (gOf m c) h = ∑ J ∈ box S, c J * velOf m h J := by
  unfold gOf
  rw [dotGrads_single hn hm, hS]
  unfold velOf
  split <;> simp

theorem dot_gOpt {o : Option Moments} (hm : ∀ m, o = some m → m ∈ ins) {S : List Nat} (hS : ∀ m, o = some m → m.value.shape = S) (c : List Nat → ℝ) :
    dotGrads ins (gOpt o c) h = ∑ J ∈ box S, c J * velOpt o h J := by
  cases o with
  | none => simp [gOpt, velOpt, dotGrads]
  | some b => exact dot_gOf hn h (hm b rfl) (hS b rfl) c

theorem dot_projG {w x : Moments} {bias : Option Moments} (mw : w ∈ ins) (mx : x ∈ ins) (mb : ∀ m, bias = some m → m ∈ ins) {E S B H D : Nat}
    (fw : w.value.shape = [H, D, E]) (fx : x.value.shape = [E, S, B]) (fb : ∀ m, bias = some m → m.value.shape = [D, H]) (env : Env) (dp : List Nat → ℝ) :
    dotGrads ins (projG S B H D w x bias env dp) h =
      ∑ J ∈ box [D, S, B, H], dp J * projD E (env w.value.id) (env x.value.id) (velOf w h) (velOf x h) (velOpt bias h) J := by
  rw [proj_adjoint]
  unfold projG
  rw [dotGrads_add, dotGrads_add, dot_gOf hn h mw fw, dot_gOf hn h mx fx, dot_gOpt hn h mb fb]
  ring

end

theorem vjp_finish {S : List Nat} {F f : ℝ → List Nat → ℝ} {f0 D dy : List Nat → ℝ} {R : ℝ} (hF : Vel S f f0 D) (e : ∀ t, F t = f t)
    (hs : ∑ I ∈ box S, dy I * D I = R) : ∃ D : List Nat → ℝ, (∀ I ∈ box S, HasDerivAt (fun t => F t I) (D I) 0) ∧ ∑ I ∈ box S, dy I * D I = R :=
  ⟨D, fun I hI => by simp only [e]; exact hF.2 I hI, hs⟩

theorem attn_vjp {l : Attention ℝ} {z t : AttnDims} (fit : l.Fits z t) (hn : (l.ins.map fun m => m.value.id).Nodup) (asIdx : ℝ → Int) (env : Env) (dy : List Nat → ℝ) :
    IsVJP l.ins l.y.value.shape (l.F z asIdx) env dy (l.G z asIdx env dy) := by
  obtain ⟨m1, m2, m3, m4, m5, m6, m7, m8, m9, m10, m11, m12⟩ := l.mem_ins
  intro c h hc
  have hQ := proj_vel (curve_vel hc m4 fit.wq.1) (curve_vel hc m1 fit.xq.1) (curve_velOpt hc m8 fun m e => (fit.bqkv _ (by simp) m e).1)
  have hK := proj_vel (curve_vel hc m5 fit.wk.1) (curve_vel hc m2 fit.xk.1) (curve_velOpt hc m9 fun m e => (fit.bqkv _ (by simp) m e).1)
  have hV := proj_vel (curve_vel hc m6 fit.wv.1) (curve_vel hc m3 fit.xv.1) (curve_velOpt hc m10 fun m e => (fit.bqkv _ (by simp) m e).1)
  have hm : ∀ t, maskAt asIdx l.mask (c t) = maskAt asIdx l.mask env := by
    intro t
    cases e : l.mask with
    | none => rfl
    | some T =>
      funext I
      simp only [maskAt]
      have := (hc _ (m12 T e)).2.2 rfl t
      simp only [maskMoments] at this
      rw [this]
  have hA := soft_vel (masked_vel (maskAt asIdx l.mask env) l.val (score_vel hK hQ))
  have hH := heads_vel hV hA
  have hF := comb_vel (curve_vel hc m7 fit.w.1) hH (curve_velOpt hc m11 fun m e => (fit.bo m e).1)
  have eF : ∀ t, l.F z asIdx (c t) = attnCombine z.H z.D (c t l.w.value.id) (attnHeads z.S (attnProj z.Ev (c t l.wv.value.id) (c t l.xv.value.id) (biasAt l.biasV (c t)))
      (attnWeights z.S (attnMasked (maskAt asIdx l.mask env) l.val (attnScore z.D (attnProj z.Ek (c t l.wk.value.id) (c t l.xk.value.id) (biasAt l.biasK (c t)))
        (attnProj z.E (c t l.wq.value.id) (c t l.xq.value.id) (biasAt l.biasQ (c t))))))) (biasAt l.biasOut (c t)) := by
    intro t
    simp only [Attention.F, Attention.headsOut, Attention.V, Attention.A, Attention.Q, Attention.K, hm]
  rw [fit.y.1]
  refine vjp_finish hF eF ?_
  rw [comb_adjoint, heads_adjoint, soft_adjoint, masked_adjoint, score_adjoint]
  unfold Attention.G
  rw [dotGrads_add, dotGrads_add, dotGrads_add, dotGrads_add, dot_gOf hn h m7 fit.w.1, dot_gOpt hn h m11 fun m e => (fit.bo m e).1,
    dot_projG hn h m6 m3 m10 fit.wv.1 fit.xv.1 fun m e => (fit.bqkv _ (by simp) m e).1, dot_projG hn h m5 m2 m9 fit.wk.1 fit.xk.1 fun m e => (fit.bqkv _ (by simp) m e).1,
    dot_projG hn h m4 m1 m8 fit.wq.1 fit.xq.1 fun m e => (fit.bqkv _ (by simp) m e).1]
  simp only [Attention.dQ, Attention.dK, Attention.dS, Attention.dA, Attention.dB, Attention.dV, Attention.headsOut, Attention.V, Attention.A, Attention.Q, Attention.K]
  ring

end
end NNTile
