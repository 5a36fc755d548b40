import Verif.Spec.Flash
import Verif.Lib.FusionOps
import Verif.Lib.Layer
/-! Tiles of the tensors of FlashAttention. -/
namespace NNTile
variable {α : Type}

theorem Exec.nil (s : Store α) : Exec (seqAsync []) s s := ⟨[], rfl, rfl⟩

theorem Exec.cons_iff {p : M (List (Task1 α))} {ps : List (M (List (Task1 α)))} {s s' : Store α} :
    Exec (seqAsync (p :: ps)) s s' ↔ ∃ s1, Exec p s s1 ∧ Exec (seqAsync ps) s1 s' := by
  constructor
  · rintro ⟨ts, e, r⟩
    simp only [seqAsync] at e
    rw [M.bind_eq_ok] at e
    obtain ⟨t1, e1, e⟩ := e
    rw [M.bind_eq_ok] at e
    obtain ⟨t2, e2, e⟩ := e
    cases e
    rw [runAll1_append, M.bind_eq_ok] at r
    obtain ⟨s1, r1, r2⟩ := r
    exact ⟨s1, ⟨t1, e1, r1⟩, t2, e2, r2⟩
  · rintro ⟨s1, ⟨t1, e1, r1⟩, t2, e2, r2⟩
    refine ⟨t1 ++ t2, ?_, ?_⟩
    · simp only [seqAsync, e1, e2, M.bind_ok]
    · rw [runAll1_append, r1, M.bind_ok, r2]

theorem Exec.append_iff {ps qs : List (M (List (Task1 α)))} {s s' : Store α} :
    Exec (seqAsync (ps ++ qs)) s s' ↔ ∃ s1, Exec (seqAsync ps) s s1 ∧ Exec (seqAsync qs) s1 s' := by
  induction ps generalizing s with
  | nil =>
    constructor
    · intro h
      exact ⟨s, Exec.nil s, h⟩
    · rintro ⟨s1, ⟨ts, e, r⟩, h⟩
      simp only [seqAsync, Except.ok.injEq] at e
      subst e
      simp only [runAll1, List.map_nil, runAll, Except.ok.injEq] at r
      subst r
      exact h
  | cons p ps ih =>
    rw [List.cons_append, Exec.cons_iff]
    simp only [Exec.cons_iff, ih]
    constructor
    · rintro ⟨s1, h1, s2, h2, h3⟩
      exact ⟨s2, ⟨s1, h1, h2⟩, h3⟩
    · rintro ⟨s2, ⟨s1, h1, h2⟩, h3⟩
      exact ⟨s1, h1, s2, h2, h3⟩

theorem Exec.last {p : M (List (Task1 α))} {s s' : Store α} : Exec (seqAsync [p]) s s' ↔ Exec p s s' := by
  rw [Exec.cons_iff]
  constructor
  · rintro ⟨s1, h1, ts, e, r⟩
    simp only [seqAsync, Except.ok.injEq] at e
    subst e
    simp only [runAll1, List.map_nil, runAll, Except.ok.injEq] at r
    subst r
    exact h1
  · intro h
    exact ⟨s', h, Exec.nil _⟩

theorem Exec.det {p : M (List (Task1 α))} {s s' s'' : Store α} (h : Exec p s s') (h' : Exec p s s'') : s' = s'' := by
  obtain ⟨ts, e, r⟩ := h
  obtain ⟨ts', e', r'⟩ := h'
  rw [e] at e'
  cases e'
  rw [r] at r'
  cases r'
  rfl

/-- The tile `t` after the operation. -/
theorem ByTiles.tile {async : M (List (Task1 α))} {dst : Tensor} {gt : List Nat → List (Task1 α)} (h : ByTiles async dst gt) {s s' : Store α} (e : Exec async s s')
    {t : List Nat} (ht : InBox dst.grid t) : foldBuf s (gt t) (s (dst.id, lin dst.grid t)) = .ok (s' (dst.id, lin dst.grid t)) := by
  obtain ⟨ts, e, r⟩ := e
  exact h.fold e r ht

/-- Other tensors. -/
theorem ByTiles.frame {async : M (List (Task1 α))} {dst : Tensor} {gt : List Nat → List (Task1 α)} (h : ByTiles async dst gt) {s s' : Store α} (e : Exec async s s')
    {k : Handle} (hk : k.1 ≠ dst.id) : s' k = s k := by
  obtain ⟨ts, e, r⟩ := e
  obtain ⟨ts', e', h1, h2⟩ := h
  rw [e] at e'
  cases e'
  have := foldBuf_of_run (fun u hu k hk v hv he => by
    obtain ⟨⟨t', -, ht'⟩, -⟩ := h1 v hv
    exact (h1 u hu).2 k hk (by rw [← he, ht'])) r k
  rw [List.filter_eq_nil_iff.2] at this
  · simp only [foldBuf, Except.ok.injEq] at this
    exact this.symm
  · intro u hu he
    obtain ⟨⟨t', -, ht'⟩, -⟩ := h1 u hu
    rw [decide_eq_true_eq] at he
    rw [← he, ht'] at hk
    exact hk rfl

theorem even_grid {S t : Nat} (hS : 0 < S) (ht : 0 < t) (h : t ∣ S) : (S - 1) / t + 1 = S / t := by
  obtain ⟨k, rfl⟩ := h
  rw [Nat.mul_div_cancel_left _ ht]
  have hk : 0 < k := Nat.pos_of_mul_pos_left hS
  obtain ⟨k, rfl⟩ : ∃ j, k = j + 1 := ⟨k - 1, by omega⟩
  rw [show t * (k + 1) - 1 = t * k + (t - 1) by rw [Nat.mul_add]; omega, Nat.mul_add_div ht, Nat.div_eq_of_lt (by omega)]

theorem even_tile {S t i : Nat} (h : t ∣ S) (hi : i < S / t) : min t (S - i * t) = t := by
  obtain ⟨k, rfl⟩ := h
  have ht : 0 < t := by
    rcases Nat.eq_zero_or_pos t with rfl | h
    · simp at hi
    · exact h
  rw [Nat.mul_div_cancel_left _ ht] at hi
  have : t * (i + 1) ≤ t * k := Nat.mul_le_mul_left _ hi
  rw [Nat.mul_add, Nat.mul_one, Nat.mul_comm t i] at this
  omega

/-- Sizes are positive. -/
structure FlashPos (z t : AttnDims) : Prop where
  zD : 0 < z.D
  zS : 0 < z.S
  zB : 0 < z.B
  zH : 0 < z.H
  tD : 0 < t.D
  tS : 0 < t.S
  tB : 0 < t.B
  tH : 0 < t.H

theorem Tensor.IsHeads.pos {T : Tensor} {z t : AttnDims} (h : T.IsHeads z t) (hw : T.WF) : FlashPos z t := by
  obtain ⟨h1, h2⟩ := h
  obtain ⟨p1, p2, -⟩ := hw
  rw [h1] at p1
  rw [h2] at p2
  exact ⟨p1 _ (by simp), p1 _ (by simp), p1 _ (by simp), p1 _ (by simp), p2 _ (by simp), p2 _ (by simp), p2 _ (by simp), p2 _ (by simp)⟩

section
variable {z t : AttnDims} (ft : FlashTiles z t) (fp : FlashPos z t) {T : Tensor}
include ft fp

theorem one_tile : (z.D - 1) / t.D + 1 = 1 := by
  rw [ft.D, Nat.div_eq_of_lt (by have := fp.zD; omega)]

theorem Tensor.IsHeads.grid (h : T.IsHeads z t) : T.grid = [1, z.S / t.S, z.B / t.B, z.H / t.H] := by
  rw [Tensor.grid, h.1, h.2]
  simp only [gridOf, one_tile ft fp, even_grid fp.zS fp.tS ft.S, even_grid fp.zB fp.tB ft.B, even_grid fp.zH fp.tH ft.H]

theorem Tensor.IsScores.grid (h : T.IsScores z t) : T.grid = [z.S / t.S, z.S / t.S, z.B / t.B, z.H / t.H] := by
  rw [Tensor.grid, h.1, h.2]
  simp only [gridOf, even_grid fp.zS fp.tS ft.S, even_grid fp.zB fp.tB ft.B, even_grid fp.zH fp.tH ft.H]

theorem Tensor.IsMask.grid (h : T.IsMask z t) : T.grid = [z.S / t.S, z.S / t.S] := by
  rw [Tensor.grid, h.1, h.2]
  simp only [gridOf, even_grid fp.zS fp.tS ft.S]

theorem Tensor.IsPairs.grid (h : T.IsPairs z t) : T.grid = [1, z.S / t.S, z.B / t.B, z.H / t.H] := by
  rw [Tensor.grid, h.1, h.2]
  simp only [gridOf, even_grid fp.zS fp.tS ft.S, even_grid fp.zB fp.tB ft.B, even_grid fp.zH fp.tH ft.H]

theorem Tensor.IsSums.grid (h : T.IsSums z t) : T.grid = [z.S / t.S, z.B / t.B, z.H / t.H] := by
  rw [Tensor.grid, h.1, h.2]
  simp only [gridOf, even_grid fp.zS fp.tS ft.S, even_grid fp.zB fp.tB ft.B, even_grid fp.zH fp.tH ft.H]

omit fp in
theorem Tensor.IsScores.tshape (h : T.IsScores z t) {j i n m : Nat} (hj : j < z.S / t.S) (hi : i < z.S / t.S) (hn : n < z.B / t.B) (hm : m < z.H / t.H) :
    T.tshape [j, i, n, m] = [t.S, t.S, t.B, t.H] := by
  rw [Tensor.tshape, h.1, h.2]
  simp only [tileShape, even_tile ft.S hj, even_tile ft.S hi, even_tile ft.B hn, even_tile ft.H hm]

end
end NNTile
