import Verif.Spec.Torch
import Verif.Lib.GptMath
import Verif.Lib.Sum
import Mathlib.Tactic.Ring
/-!
# The transformers of NNTile and of PyTorch are the same function
-/
namespace NNTile
open Finset

/-- The same hidden states. -/
def SameHidden (x : List Nat → ℝ) (X : Hidden) : Prop := ∀ e s n, x [e, s, n] = X n s e

variable {x : List Nat → ℝ} {X : Hidden}

theorem SameHidden.ln (h : SameHidden x X) (E : Nat) (eps : ℝ) (w b : List Nat → ℝ) : SameHidden (lnOut 0 E eps w b x) (torchNorm E eps w b X) := by
  intro e s n
  have hx : ∀ e, x [e, s, n] = X n s e := fun e => h e s n
  simp only [lnOut_at, hx, torchNorm]
  ring

theorem SameHidden.conv (h : SameHidden x X) (E : Nat) {w : List Nat → ℝ} (W b : List Nat → ℝ) (hw : ∀ o i, w [o, i] = W [i, o]) :
    SameHidden (linearOut .R .noTrans 1 [E] x w b) (conv1d E W b X) := by
  intro e s n
  simp only [linearR_at, conv1d, hw, h _ s n]
  congr 1
  exact sum_congr rfl fun i _ => mul_comm _ _

theorem SameHidden.mlp (h : SameHidden x X) (z : GptDims) (t : TorchBlock (List Nat → ℝ)) :
    SameHidden (gptMlp z (t.toNNTile z.E z.D) x) (torchMlp z.E z.inner z.phi t X) := by
  refine SameHidden.conv (X := fun n s o => z.phi (conv1d z.E t.fcw t.fcb X n s o)) ?_ z.inner t.outw t.outb fun _ _ => rfl
  intro o s n
  exact congrArg z.phi (h.conv z.E t.fcw t.fcb (fun _ _ => rfl) o s n)

theorem SameHidden.attn (h : SameHidden x X) {z : GptDims} (hE : z.E = z.D * z.H) {soft : (List Nat → ℝ) → List Nat → ℝ} {weight : (Nat → ℝ) → Nat → Nat → ℝ}
    (hw : ∀ s i j n h, soft s [i, j, n, h] = weight (fun i => s [i, j, n, h]) j i) (t : TorchBlock (List Nat → ℝ)) :
    SameHidden (selfAttn z soft (t.toNNTile z.E z.D) x) (torchAttn z.E z.S z.H z.D weight t X) := by
  intro e s n
  have hp : ∀ c d i h, attnProj z.E (fun I => t.attnw [I.getD 2 0, c * z.E + (I.getD 0 0 * z.D + I.getD 1 0)]) x (fun I => t.attnb [c * z.E + (I.getD 1 0 * z.D + I.getD 0 0)]) [d, i, n, h] =
      conv1d z.E t.attnw t.attnb X n i (c * z.E + (h * z.D + d)) := by
    intro c d i h'
    simp only [attnProj, conv1d, List.getD_cons_zero, List.getD_cons_succ, h _ i n]
    congr 1
    exact sum_congr rfl fun i _ => mul_comm _ _
  have hq : ∀ d i h, attnProj z.E (t.toNNTile z.E z.D).wq x (t.toNNTile z.E z.D).bq [d, i, n, h] = conv1d z.E t.attnw t.attnb X n i (h * z.D + d) := fun d i h => by
    rw [← Nat.zero_add (h * z.D + d), ← Nat.zero_mul z.E]; exact hp 0 d i h
  have hk : ∀ d i h, attnProj z.E (t.toNNTile z.E z.D).wk x (t.toNNTile z.E z.D).bk [d, i, n, h] = conv1d z.E t.attnw t.attnb X n i (z.E + (h * z.D + d)) := fun d i h => by
    rw [show z.E + (h * z.D + d) = 1 * z.E + (h * z.D + d) by rw [Nat.one_mul]]; exact hp 1 d i h
  have hv : ∀ d i h, attnProj z.E (t.toNNTile z.E z.D).wv x (t.toNNTile z.E z.D).bv [d, i, n, h] = conv1d z.E t.attnw t.attnb X n i (2 * z.E + (h * z.D + d)) := hp 2
  simp only [selfAttn, attnCombine, torchAttn]
  rw [conv1d]
  congr 1
  rw [show range z.E = range (z.D * z.H) by rw [hE], sum_range_mul]
  refine sum_congr rfl fun h' _ => sum_congr rfl fun d hd => ?_
  have hd' := mem_range.1 hd
  rw [Nat.add_mul_div_left _ _ (by omega), Nat.div_eq_of_lt hd', Nat.zero_add, Nat.add_mul_mod_self_left, Nat.mod_eq_of_lt hd']
  have e1 : (t.toNNTile z.E z.D).w [e, h', d] = t.projw [d + z.D * h', e] := by
    rw [Nat.add_comm, Nat.mul_comm z.D]
    rfl
  rw [e1, mul_comm]
  congr 1
  simp only [attnHeads]
  refine sum_congr rfl fun i _ => ?_
  rw [hw, hv, mul_comm]
  congr 2
  funext i'
  simp only [attnScore, hq, hk]
  congr 1
  exact sum_congr rfl fun d _ => mul_comm _ _

theorem SameHidden.block (h : SameHidden x X) {z : GptDims} (hE : z.E = z.D * z.H) {soft : (List Nat → ℝ) → List Nat → ℝ} {weight : (Nat → ℝ) → Nat → Nat → ℝ}
    (hw : ∀ s i j n h, soft s [i, j, n, h] = weight (fun i => s [i, j, n, h]) j i) (t : TorchBlock (List Nat → ℝ)) :
    SameHidden (gptBlockOut z soft x (t.toNNTile z.E z.D)) (torchBlock z weight X t) := by
  have h1 : SameHidden (fun I => x I + selfAttn z soft (t.toNNTile z.E z.D) (lnOut 0 z.E z.eps t.ln1w t.ln1b x) I)
      (fun n s e => X n s e + torchAttn z.E z.S z.H z.D weight t (torchNorm z.E z.eps t.ln1w t.ln1b X) n s e) := fun e s n =>
    congrArg₂ (· + ·) (h e s n) ((h.ln z.E z.eps t.ln1w t.ln1b).attn hE hw t e s n)
  exact fun e s n => congrArg₂ (· + ·) (h1 e s n) ((h1.ln z.E z.eps t.ln2w t.ln2b).mlp z t e s n)

theorem SameHidden.blocks {z : GptDims} (hE : z.E = z.D * z.H) {soft : (List Nat → ℝ) → List Nat → ℝ} {weight : (Nat → ℝ) → Nat → Nat → ℝ}
    (hw : ∀ s i j n h, soft s [i, j, n, h] = weight (fun i => s [i, j, n, h]) j i) : ∀ (ts : List (TorchBlock (List Nat → ℝ))) {x : List Nat → ℝ} {X : Hidden}, SameHidden x X →
    SameHidden ((ts.map (TorchBlock.toNNTile z.E z.D)).foldl (gptBlockOut z soft) x) (ts.foldl (torchBlock z weight) X)
  | [], _, _, h => h
  | t :: ts, _, _, h => SameHidden.blocks hE hw ts (h.block hE hw t)

/-- The output. -/
theorem gpt_same {z : GptDims} (hE : z.E = z.D * z.H) {soft : (List Nat → ℝ) → List Nat → ℝ} {weight : (Nat → ℝ) → Nat → Nat → ℝ}
    (hw : ∀ s i j n h, soft s [i, j, n, h] = weight (fun i => s [i, j, n, h]) j i) (t : TorchGpt (List Nat → ℝ)) (tok : List Nat → Nat) {pos : List Nat → Nat} (hpos : ∀ s, pos [s] = s)
    (v s n : Nat) : gptOut z soft (t.toNNTile z.E z.D) tok pos [v, s, n] = torchGpt z weight t (fun n s => tok [s, n]) n s v := by
  have h0 : SameHidden (gptEmbed (t.toNNTile z.E z.D).wte (t.toNNTile z.E z.D).wpe tok pos) (fun n s e => t.wte [tok [s, n], e] + t.wpe [s, e]) := by
    intro e s n
    rw [gptEmbed_at, hpos]
    rfl
  have h1 := (SameHidden.blocks hE hw t.blocks h0).ln z.E z.eps t.lnfw t.lnfb
  rw [gptOut, linearR_at, torchGpt, Pi.zero_apply, add_zero]
  refine sum_congr rfl fun e _ => ?_
  rw [mul_comm]
  exact congrArg (· * _) (h1 e s n)

theorem softAll_weight (S : Nat) (val : ℝ) (s : List Nat → ℝ) (i j n h : Nat) :
    softAll S (fun I => decide (I.getD 0 0 ≤ I.getD 1 0)) val s [i, j, n, h] = maskedSoftmax S val (fun i => s [i, j, n, h]) j i := by
  simp only [softAll, attnWeights, attnMasked, maskedSoftmax, List.getD_cons_zero, List.getD_cons_succ, decide_eq_true_eq]

theorem softCausal_weight (s : List Nat → ℝ) (i j n h : Nat) : softCausal s [i, j, n, h] = causalSoftmax (fun i => s [i, j, n, h]) j i := rfl

/-! ### Lists of parameters -/

theorem GptBlockP.toList_map {P Q : Type} (f : P → Q) (p : GptBlockP P) : (p.map f).toList = p.toList.map f := rfl

theorem GptP.toList_map {P Q : Type} (f : P → Q) (p : GptP P) : (p.map f).toList = p.toList.map f := by
  simp only [GptP.toList, GptP.map, List.map_cons, List.map_append, List.map_flatMap, List.flatMap_map, GptBlockP.toList_map, List.map_nil]

theorem blocks_inj {P : Type} : ∀ {l l' : List (GptBlockP P)} {r r' : List P}, l.length = l'.length → l.flatMap GptBlockP.toList ++ r = l'.flatMap GptBlockP.toList ++ r' → l = l' ∧ r = r'
  | [], [], _, _, _, h => ⟨rfl, h⟩
  | [], _ :: _, _, _, hl, _ => by simp at hl
  | _ :: _, [], _, _, hl, _ => by simp at hl
  | ⟨_, _, _, _, _, _, _, _, _, _, _, _, _, _, _, _⟩ :: l, ⟨_, _, _, _, _, _, _, _, _, _, _, _, _, _, _, _⟩ :: l', r, r', hl, h => by
    simp only [List.flatMap_cons, GptBlockP.toList, List.cons_append, List.nil_append, List.cons.injEq] at h
    obtain ⟨rfl, rfl, rfl, rfl, rfl, rfl, rfl, rfl, rfl, rfl, rfl, rfl, rfl, rfl, rfl, rfl, h⟩ := h
    obtain ⟨rfl, rfl⟩ := blocks_inj (by simpa using hl) h
    exact ⟨rfl, rfl⟩

theorem GptP.ext_toList {P : Type} {p q : GptP P} (hl : p.blocks.length = q.blocks.length) (h : p.toList = q.toList) : p = q := by
  obtain ⟨a, b, l, c, d, e⟩ := p
  obtain ⟨a', b', l', c', d', e'⟩ := q
  simp only [GptP.toList, List.cons.injEq] at h
  obtain ⟨rfl, rfl, h⟩ := h
  obtain ⟨h1, h2⟩ := blocks_inj (r := [c, d, e]) (r' := [c', d', e']) hl h
  simp only [List.cons.injEq, and_true] at h2
  obtain ⟨rfl, rfl, rfl⟩ := h2
  subst h1
  rfl

end NNTile
