import Verif.Spec.MixerTorch
import Verif.Lib.TorchMath
/-!
# The mixer of NNTile and that of PyTorch compute the same
-/
namespace NNTile
open Finset
noncomputable section

/-- The activations with three dimensions are the same. -/
def SameAct (x : List Nat → ℝ) (X : Hidden) : Prop := ∀ p b e, x [p, b, e] = X p b e

variable {x : List Nat → ℝ} {X : Hidden}

theorem SameAct.project (h : SameAct x X) (q : Nat) (W : List Nat → ℝ) : SameAct (mixProject q (swap2 W) x) (torchLinear q W X) := by
  intro p b e
  simp only [mixProject, torchLinear, swap2, List.getD_cons_zero, List.getD_cons_succ]
  exact sum_congr rfl fun k _ => by rw [h]

theorem SameAct.ln (h : SameAct x X) (E : Nat) (eps : ℝ) (w b : List Nat → ℝ) : SameAct (lnOut 2 E eps w b x) (torchNorm E eps w b X) := by
  intro p b' e
  simp only [lnOut, lnHat, lnInv, lnMean, lnVar, torchNorm, List.eraseIdx_cons_succ, List.eraseIdx_cons_zero, List.insertIdx_succ_cons, List.insertIdx_zero, List.getD_cons_zero,
    List.getD_cons_succ, h p b']
  ring

theorem SameAct.tokens (h : SameAct x X) (n : Nat) (u1 u2 : List Nat → ℝ) : SameAct (mixTokens n u1 u2 x) (torchSwap (torchFn n u1 u2 (torchSwap X))) := by
  intro p b e
  simp only [mixTokens, torchSwap, torchFn, torchLinear]
  rw [Nat.mul_comm n 4]
  refine sum_congr rfl fun k _ => ?_
  rw [mul_comm]
  congr 2
  exact sum_congr rfl fun i _ => by rw [h, mul_comm]

theorem SameAct.channels (h : SameAct x X) (E : Nat) (v1 v2 : List Nat → ℝ) : SameAct (mixChannels E (swap2 v1) (swap2 v2) x) (torchFn E v1 v2 X) := by
  intro p b e
  simp only [mixChannels, torchFn, torchLinear, swap2, List.getD_cons_zero, List.getD_cons_succ]
  rw [Nat.mul_comm E 4]
  refine sum_congr rfl fun k _ => ?_
  congr 2
  exact sum_congr rfl fun i _ => by rw [h]

theorem SameAct.block (h : SameAct x X) (n E : Nat) (t : MixBlockP (List Nat → ℝ)) : SameAct (mixBlockOut n E x t.toNNTile) (torchMixerLayer n E X t) := by
  have h1 := (h.ln E (1 / 100000) t.g1 t.b1).tokens n t.u1 t.u2
  set y := fun I => x I + mixTokens n t.u1 t.u2 (lnOut 2 E (1 / 100000) t.g1 t.b1 x) I with hy
  set Y : Hidden := fun p b e => torchSwap (torchFn n t.u1 t.u2 (torchSwap (torchNorm E (1 / 100000) t.g1 t.b1 X))) p b e + X p b e with hY
  have h2 : SameAct y Y := by
    intro p b e
    simp only [hy, hY]
    rw [h, h1, add_comm]
  have h3 := (h2.ln E (1 / 100000) t.g2 t.b2).channels E t.v1 t.v2
  intro p b e
  change y [p, b, e] + mixChannels E (swap2 t.v1) (swap2 t.v2) (lnOut 2 E (1 / 100000) t.g2 t.b2 y) [p, b, e] = torchFn E t.v1 t.v2 (torchNorm E (1 / 100000) t.g2 t.b2 Y) p b e + Y p b e
  rw [h2, h3, add_comm]

theorem SameAct.blocks (n E : Nat) : ∀ (ts : List (MixBlockP (List Nat → ℝ))) {x : List Nat → ℝ} {X : Hidden}, SameAct x X →
    SameAct ((ts.map MixBlockP.toNNTile).foldl (mixBlockOut n E) x) (ts.foldl (torchMixerLayer n E) X)
  | [], _, _, h => h
  | t :: ts, _, _, h => SameAct.blocks n E ts (h.block n E t)

theorem mix_same (n q E : Nat) (t : MixP (List Nat → ℝ)) (x : List Nat → ℝ) (b c : Nat) : mixOut n q E t.toNNTile x [c, b] = torchMixer n q E t (fun p b e => x [p, b, e]) b c := by
  have h : SameAct x (fun p b e => x [p, b, e]) := fun _ _ _ => rfl
  have h1 := SameAct.blocks n E t.blocks (h.project q t.w)
  simp only [mixOut, mixClassify, torchMixer, MixP.toNNTile]
  refine sum_congr rfl fun e _ => ?_
  rw [mul_comm]
  congr 2
  exact sum_congr rfl fun p _ => h1 p b e

end
end NNTile
