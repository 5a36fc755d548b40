import Verif.Model.Patching
import Verif.Lib.Torch
/-!
# The loops which cut images into patches
-/
namespace NNTile
variable {α : Type}

theorem NdArray.Is.cut0 {a : NdArray α} {n : Nat} {S : List Nat} {x : List Nat → α} (h : a.Is (n :: S) x) {lo hi : Nat} (hh : hi ≤ n) (hl : lo ≤ hi) :
    ∃ b, a.slice 0 lo hi = .ok b ∧ b.Is ((hi - lo) :: S) (fun I => x (I.set 0 (lo + I.getD 0 0))) := by
  obtain ⟨h1, h2⟩ := h
  refine ⟨_, by rw [NdArray.slice, throwIf_neg (by rw [h1]; simp), M.bind_ok], ?_, ?_⟩
  · simp only [h1, List.set_cons_zero, List.getD_cons_zero, sliceLen]
    rw [Nat.min_eq_left hh, Nat.min_eq_left (hl.trans hh)]
  · intro I hI
    cases I with
    | nil => exact hI.elim
    | cons i I => exact h2 _ ⟨by have := hI.1; simp only [List.getD_cons_zero]; omega, hI.2⟩

theorem NdArray.Is.cut1 {a : NdArray α} {m n : Nat} {S : List Nat} {x : List Nat → α} (h : a.Is (m :: n :: S) x) {lo hi : Nat} (hh : hi ≤ n) (hl : lo ≤ hi) :
    ∃ b, a.slice 1 lo hi = .ok b ∧ b.Is (m :: (hi - lo) :: S) (fun I => x (I.set 1 (lo + I.getD 1 0))) := by
  obtain ⟨h1, h2⟩ := h
  refine ⟨_, by rw [NdArray.slice, throwIf_neg (by rw [h1]; simp), M.bind_ok], ?_, ?_⟩
  · simp only [h1, List.set_cons_succ, List.set_cons_zero, List.getD_cons_succ, List.getD_cons_zero, sliceLen]
    rw [Nat.min_eq_left hh, Nat.min_eq_left (hl.trans hh)]
  · intro I hI
    cases I with
    | nil => exact hI.elim
    | cons i I =>
      cases I with
      | nil => exact hI.2.elim
      | cons j I => exact h2 _ ⟨hI.1, by have := hI.2.1; simp only [List.getD_cons_succ, List.getD_cons_zero]; omega, hI.2.2⟩

theorem inBox_insert : ∀ {S : List Nat} {k i : Nat} {I : List Nat}, InBox (S.eraseIdx k) I → k < S.length → i < S.getD k 0 → InBox S (I.take k ++ i :: I.drop k)
  | [], _, _, _, _, h, _ => by simp at h
  | s :: S, 0, i, I, hI, _, hi => ⟨hi, hI⟩
  | s :: S, k + 1, i, [], hI, _, _ => hI.elim
  | s :: S, k + 1, i, j :: I, hI, hk, hi => ⟨hI.1, inBox_insert (S := S) hI.2 (by simpa using hk) (by simpa using hi)⟩

theorem NdArray.Is.pick {a : NdArray α} {S : List Nat} {x : List Nat → α} (h : a.Is S x) {k i : Nat} (hk : k < S.length) (hi : i < S.getD k 0) :
    ∃ b, a.pick k i = .ok b ∧ b.Is (S.eraseIdx k) (fun I => x (I.take k ++ i :: I.drop k)) := by
  obtain ⟨h1, h2⟩ := h
  refine ⟨_, by rw [NdArray.pick, throwIf_neg (by rw [h1]; omega), M.bind_ok], by rw [h1], fun I hI => ?_⟩
  exact h2 _ (inBox_insert hI hk hi)

/-- A row is written: what was right stays right. -/
theorem NdArray.setRow_is {s v : NdArray α} {A B C : Nat} (hs : s.shape = [A, B, C]) {y : List Nat → α} {P : List Nat → Prop} (hP : ∀ I, P I → InBox [A, B, C] I → s.elem I = some (y I))
    {i j lo hi : Nat} (hi' : i < A) (hj : j < B) (hlo : lo ≤ hi) (hhi : hi ≤ C) {z : List Nat → α} (hv : v.Is [hi - lo] z) (hz : ∀ k, lo ≤ k → k < hi → z [k - lo] = y [i, j, k]) :
    ∃ s', s.setRow i j lo hi v = .ok s' ∧ s'.shape = [A, B, C] ∧ ∀ I, (P I ∨ ∃ k, lo ≤ k ∧ k < hi ∧ I = [i, j, k]) → InBox [A, B, C] I → s'.elem I = some (y I) := by
  have hc : ¬ v.shape ≠ [sliceLen (s.shape.getD 2 0) lo hi] := by
    rw [hv.1, hs]
    simp only [List.getD_cons_succ, List.getD_cons_zero, sliceLen, not_not]
    rw [Nat.min_eq_left hhi, Nat.min_eq_left (hlo.trans hhi)]
  refine ⟨⟨s.shape, fun I => if I.getD 0 0 = i ∧ I.getD 1 0 = j ∧ lo ≤ I.getD 2 0 ∧ I.getD 2 0 < hi then v.elem [I.getD 2 0 - lo] else s.elem I⟩, by rw [NdArray.setRow, throwIf_neg (by rw [hs]; simp; omega), M.bind_ok, throwIf_neg hc, M.bind_ok], hs, ?_⟩
  intro I hI hb
  obtain ⟨a, b, c, rfl⟩ : ∃ a b c, I = [a, b, c] := by
    match I, hb with
    | [a, b, c], _ => exact ⟨a, b, c, rfl⟩
  simp only [List.getD_cons_succ, List.getD_cons_zero]
  by_cases hc : a = i ∧ b = j ∧ lo ≤ c ∧ c < hi
  · obtain ⟨rfl, rfl, h1, h2⟩ := hc
    rw [if_pos ⟨rfl, rfl, h1, h2⟩, hv.2 [c - lo] ⟨by omega, trivial⟩, hz c h1 h2]
  · rw [if_neg hc]
    rcases hI with hI | ⟨k, h1, h2, h3⟩
    · exact hP _ hI hb
    · simp only [List.cons.injEq, and_true] at h3
      exact absurd ⟨h3.1, h3.2.1, by omega, by omega⟩ hc

/-- The elements of a square, row by row. -/
theorem NdArray.Is.flatten {a : NdArray α} {p : Nat} (hp : 0 < p) {x : List Nat → α} (h : a.Is [p, p] x) {n : Nat} (hn : n = p * p) :
    ∃ b, a.reshape [n] = .ok b ∧ b.Is [n] (fun I => x [I.getD 0 0 / p, I.getD 0 0 % p]) := by
  subst hn
  obtain ⟨b, e, hb⟩ := h.reshape (S' := [p * p]) (by simp [Pos, hp]) (by simp)
  refine ⟨b, e, hb.1, fun I hI => ?_⟩
  rw [hb.2 I hI]
  obtain ⟨k, rfl⟩ : ∃ k, I = [k] := by
    match I, hI with
    | [k], _ => exact ⟨k, rfl⟩
  have hk : k < p * p := hI.1
  have : k / p < p := Nat.div_lt_of_lt_mul hk
  simp [lin, unlin, Nat.mod_eq_of_lt this]

theorem patch_arith {p H W i : Nat} (hi : i < H * W) : 0 < W ∧ i / W < H ∧ i % W < W ∧ (i / W + 1) * p ≤ H * p ∧ (i % W + 1) * p ≤ W * p := by
  have hW : 0 < W := Nat.pos_of_ne_zero fun h => by simp [h] at hi
  have h1 : i / W < H := Nat.div_lt_of_lt_mul (by rwa [Nat.mul_comm] at hi)
  have h2 := Nat.mod_lt i hW
  exact ⟨hW, h1, h2, Nat.mul_le_mul_right _ h1, Nat.mul_le_mul_right _ h2⟩

/-- One patch of a grey image. -/
theorem patchStep_is {image : NdArray α} {p H W B : Nat} (hp : 0 < p) {x : List Nat → α} (h : image.Is [H * p, B, W * p] x) {i j : Nat} (hi : i < H * W) (hj : j < B) {s : NdArray α}
    (hs : s.shape = [H * W, B, p * p]) {y : List Nat → α} {P : List Nat → Prop} (hP : ∀ I, P I → InBox [H * W, B, p * p] I → s.elem I = some (y I))
    (hy : ∀ k, k < p * p → y [i, j, k] = x [i / W * p + k / p, j, i % W * p + k % p]) :
    ∃ s', patchStep image p i (i / W) (i % W) j s = .ok s' ∧ s'.shape = [H * W, B, p * p] ∧
      ∀ I, (P I ∨ ∃ k, 0 ≤ k ∧ k < p * p ∧ I = [i, j, k]) → InBox [H * W, B, p * p] I → s'.elem I = some (y I) := by
  obtain ⟨hW, hx, hy', a1, a2⟩ := patch_arith (p := p) hi
  obtain ⟨a, e1, h⟩ := h.cut0 (lo := i / W * p) (hi := (i / W + 1) * p) a1 (Nat.mul_le_mul_right _ (Nat.le_succ _))
  obtain ⟨b, e2, h⟩ := h.pick (k := 1) (i := j) (by simp) (by simpa using hj)
  obtain ⟨c, e3, h⟩ := NdArray.Is.cut1 (S := []) h (lo := i % W * p) (hi := (i % W + 1) * p) a2 (Nat.mul_le_mul_right _ (Nat.le_succ _))
  have d : ∀ q, (q + 1) * p - q * p = p := fun q => by rw [Nat.succ_mul]; omega
  rw [d, d] at h
  obtain ⟨v, e4, h⟩ := h.flatten hp (n := p ^ 2) (sq p)
  obtain ⟨s', e5, hs', hr⟩ := NdArray.setRow_is hs hP hi hj (lo := 0) (hi := p * p) (Nat.zero_le _) (le_refl _) (by rw [Nat.sub_zero, ← sq]; exact h) (fun k _ hk => by
    rw [hy k hk]
    simp)
  refine ⟨s', ?_, hs', hr⟩
  rw [patchStep, e1, M.bind_ok, e2, M.bind_ok, e3, M.bind_ok, e4, M.bind_ok, hs]
  exact e5

/-- One patch of one color. -/
theorem patchRgbStep_is {image : NdArray α} {p H W B C : Nat} (hp : 0 < p) {x : List Nat → α} (h : image.Is [B, H * p, W * p, C] x) {i j c : Nat} (hi : i < H * W) (hj : j < B) (hc : c < C)
    {s : NdArray α} (hs : s.shape = [H * W, B, C * (p * p)]) {y : List Nat → α} {P : List Nat → Prop} (hP : ∀ I, P I → InBox [H * W, B, C * (p * p)] I → s.elem I = some (y I))
    (hy : ∀ k, k < p * p → y [i, j, c * (p * p) + k] = x [j, i / W * p + k / p, i % W * p + k % p, c]) :
    ∃ s', patchRgbStep image p j i (i / W) (i % W) c s = .ok s' ∧ s'.shape = [H * W, B, C * (p * p)] ∧
      ∀ I, (P I ∨ ∃ k, c * (p * p) ≤ k ∧ k < (c + 1) * (p * p) ∧ I = [i, j, k]) → InBox [H * W, B, C * (p * p)] I → s'.elem I = some (y I) := by
  obtain ⟨hW, hx, hy', a1, a2⟩ := patch_arith (p := p) hi
  obtain ⟨a, e1, h⟩ := h.pick (k := 0) (i := j) (by simp) (by simpa using hj)
  obtain ⟨b, e2, h⟩ := NdArray.Is.cut0 (S := [W * p, C]) h (lo := i / W * p) (hi := (i / W + 1) * p) a1 (Nat.mul_le_mul_right _ (Nat.le_succ _))
  obtain ⟨c', e3, h⟩ := NdArray.Is.cut1 (S := [C]) h (lo := i % W * p) (hi := (i % W + 1) * p) a2 (Nat.mul_le_mul_right _ (Nat.le_succ _))
  obtain ⟨d', e4, h⟩ := h.pick (k := 2) (i := c) (by simp) (by simpa using hc)
  have d : ∀ q, (q + 1) * p - q * p = p := fun q => by rw [Nat.succ_mul]; omega
  rw [d, d] at h
  have hd : d'.shape.prod = p * p := by rw [h.1]; simp
  obtain ⟨v, e5, h⟩ := NdArray.Is.flatten hp h hd
  obtain ⟨s', e6, hs', hr⟩ := NdArray.setRow_is hs hP hi hj (lo := c * (p * p)) (hi := (c + 1) * (p * p)) (Nat.mul_le_mul_right _ (Nat.le_succ _)) (Nat.mul_le_mul_right _ hc) (v := v)
    (by rw [Nat.succ_mul, Nat.add_sub_cancel_left, ← hd]; exact h) (fun k h1 h2 => by
    obtain ⟨k, rfl⟩ := Nat.exists_eq_add_of_le h1
    rw [hy k (by rw [Nat.succ_mul] at h2; omega)]
    simp)
  refine ⟨s', ?_, hs', hr⟩
  rw [patchRgbStep, e1, M.bind_ok, e2, M.bind_ok, e3, M.bind_ok, e4, M.bind_ok, e5, M.bind_ok, sq]
  exact e6

end NNTile
