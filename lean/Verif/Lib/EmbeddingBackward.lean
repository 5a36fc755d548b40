import Verif.Lib.Embedding
import Verif.Lib.ReduxFiber
/-! The kernel of `embedding_backward` over the reals. -/
namespace NNTile
open Finset

/-- What the kernel adds to the cell `c` of the tile of `vocab`. -/
def embedInc (m n k k0 ks : Nat) (tok : Nat → Nat) (x : Nat → ℝ) (c : Nat) : ℝ :=
  ∑ i2 ∈ range n, ∑ i1 ∈ range m, if tok (i1 + m * i2) = c / ks then x (i1 + m * ((k0 + c % ks) + k * i2)) else 0

theorem embeddingBackward_run {asIdx : ℝ → Int} {m n k k0 ks V : Nat} {index embed o : Buf ℝ} {w x y : Nat → ℝ} (hk : k0 + ks ≤ k)
    (ho : SumRep (ks * V) o y) (hi : index.size = m * n) (hw : ∀ j, j < m * n → index.data j = some (w j)) (hv : embed.size = m * (k * n))
    (hx : ∀ j, j < m * (k * n) → embed.data j = some (x j)) (hok : ∀ j, j < m * n → 0 ≤ asIdx (w j) ∧ asIdx (w j) < V) :
    ∃ b', embeddingBackwardKernel asIdx m n k k0 ks index embed o = .ok b' ∧
      SumRep (ks * V) b' (fun c => y c + embedInc m n k k0 ks (fun j => (asIdx (w j)).toNat) x c) := by
  unfold embeddingBackwardKernel
  obtain ⟨b', e, h⟩ := forN_inv (n := n) (s := o) (f := fun i2 vocab => forN m (fun i1 vocab => do
      let token ← index.rd (i2*m + i1)
      forN ks (fun i0 vocab => do
        let o ← tokenOff ks (asIdx token) i0
        let v ← vocab.rd o
        let e ← embed.rd ((i2*k + k0)*m + i1 + i0*m)
        vocab.wr o (v + e)) vocab) vocab)
    (fun N b => SumRep (ks * V) b (fun c => y c + ∑ i2 ∈ range N, ∑ i1 ∈ range m,
      if (asIdx (w (i1 + m * i2))).toNat = c / ks then x (i1 + m * ((k0 + c % ks) + k * i2)) else 0))
    (by simpa using ho) (by
      intro i2 h2 b hb
      obtain ⟨b', e, h⟩ := forN_inv (n := m) (s := b) (f := fun i1 vocab => do
          let token ← index.rd (i2*m + i1)
          forN ks (fun i0 vocab => do
            let o ← tokenOff ks (asIdx token) i0
            let v ← vocab.rd o
            let e ← embed.rd ((i2*k + k0)*m + i1 + i0*m)
            vocab.wr o (v + e)) vocab)
        (fun M' b => SumRep (ks * V) b (fun c => (y c + ∑ i2 ∈ range i2, ∑ i1 ∈ range m,
            if (asIdx (w (i1 + m * i2))).toNat = c / ks then x (i1 + m * ((k0 + c % ks) + k * i2)) else 0) +
          ∑ i1 ∈ range M', if (asIdx (w (i1 + m * i2))).toNat = c / ks then x (i1 + m * ((k0 + c % ks) + k * i2)) else 0))
        (by simpa using hb) (by
          intro i1 h1 b hb
          have hc := cell2_lt h1 h2
          obtain ⟨t1, t2⟩ := hok _ hc
          rw [show i2 * m + i1 = i1 + m * i2 by ring, Buf.rd_ok (by omega) (hw _ hc), M.bind_ok]
          set Y : Nat → ℝ := (fun c => (y c + ∑ i2 ∈ range i2, ∑ i1 ∈ range m,
            if (asIdx (w (i1 + m * i2))).toNat = c / ks then x (i1 + m * ((k0 + c % ks) + k * i2)) else 0) +
            ∑ i1 ∈ range i1, if (asIdx (w (i1 + m * i2))).toNat = c / ks then x (i1 + m * ((k0 + c % ks) + k * i2)) else 0) with hY
          obtain ⟨b', e, h⟩ := forN_inv (n := ks) (s := b) (f := fun i0 vocab => do
              let o ← tokenOff ks (asIdx (w (i1 + m * i2))) i0
              let v ← vocab.rd o
              let e ← embed.rd ((i2*k + k0)*m + i1 + i0*m)
              vocab.wr o (v + e))
            (fun K b => SumRep (ks * V) b (fun c => Y c + if (asIdx (w (i1 + m * i2))).toNat = c / ks ∧ c % ks < K then
              x (i1 + m * ((k0 + c % ks) + k * i2)) else 0))
            (by simpa using hb) (by
              intro i0 h0 b hb
              have hcell := cell2_lt h0 (show (asIdx (w (i1 + m * i2))).toNat < V by omega)
              have hcell3 : i1 + m * ((k0 + i0) + k * i2) < m * (k * n) := cell3_lt h1 (by omega) h2
              rw [tokenOff_ok t1, M.bind_ok, Buf.rd_ok (by rw [hb.1]; exact hcell) (hb.2 _ hcell), M.bind_ok,
                show (i2 * k + k0) * m + i1 + i0 * m = i1 + m * ((k0 + i0) + k * i2) by ring, Buf.rd_ok (by omega) (hx _ hcell3), M.bind_ok,
                Buf.wr_put (by rw [hb.1]; exact hcell)]
              refine ⟨_, rfl, hb.1, fun c hc' => ?_⟩
              simp only [Buf.put]
              by_cases hcc : c = i0 + ks * (asIdx (w (i1 + m * i2))).toNat
              · rw [if_pos hcc, hcc, cell2_mod h0, cell2_div h0]
                simp
              · rw [if_neg hcc, hb.2 c hc']
                obtain ⟨s1, s2, s3⟩ := cell2_split hc'
                have hiff : ((asIdx (w (i1 + m * i2))).toNat = c / ks ∧ c % ks < i0) ↔ ((asIdx (w (i1 + m * i2))).toNat = c / ks ∧ c % ks < i0 + 1) := by
                  constructor
                  · rintro ⟨r1, r2⟩; exact ⟨r1, by omega⟩
                  · rintro ⟨r1, r2⟩
                    refine ⟨r1, ?_⟩
                    by_contra hcon
                    have : c % ks = i0 := by omega
                    exact hcc (by rw [← this, r1]; exact s3.symm)
                simp only [hiff])
          refine ⟨b', e, h.1, fun c hc' => ?_⟩
          obtain ⟨s1, -, -⟩ := cell2_split hc'
          rw [h.2 c hc']
          simp only [sum_range_succ, s1, and_true, hY, add_assoc])
      refine ⟨b', e, h.1, fun c hc' => ?_⟩
      rw [h.2 c hc']
      simp only [sum_range_succ, add_assoc])
  exact ⟨b', e, h⟩

/-- A sum over the elements of a tile with entry `a` equal to `q`. -/
theorem sum_axis_cells {S : List Nat} {a : Nat} (hS : Pos S) (ha : a < S.length) {q : Nat} (hq : q < kOf S a) (F : List Nat → ℝ) :
    ∑ l ∈ (box S).filter (fun l => l.getD a 0 = q), F l =
      ∑ i2 ∈ range (nOf S a), ∑ i1 ∈ range (mOf S a), F (unlin S (i1 + mOf S a * (q + kOf S a * i2))) := by
  have hfib : ∀ l : List Nat, fiberIdx a 0 l = [l.getD a 0] := by intro l; simp [fiberIdx]
  have hl' : InBox (fiberIdx a 0 S) [q] := by rw [hfib]; exact ⟨hq, trivial⟩
  have := sum_fiber_cells hS (by omega : a + 0 < S.length) hl' (i2 := q) (c := 0) hq (by simp [btOf]) (by rw [hfib]; simp [lin]) (fun j => F (unlin S j))
  have hmid : midOf S a 0 = nOf S a := by
    rw [midOf, nOf, List.take_of_length_le]
    simp
  rw [hmid] at this
  simp only [cell4, Nat.mul_zero, Nat.add_zero] at this
  rw [← this]
  have hfe : (box S).filter (fun l => l.getD a 0 = q) = (box S).filter (fun l => fiberIdx a 0 l = [q]) := by
    apply filter_congr
    intro l _
    rw [hfib]; simp
  rw [hfe]
  refine sum_congr rfl (fun l hl => ?_)
  rw [unlin_lin (mem_box.1 (mem_filter.1 hl).1)]

/-- What the task for tile `t` of `embed` adds to a tile of `vocab`. -/
theorem embedInc_tile {index vocab embed : Tensor} {a : Nat} (h : EmbedFit index vocab embed a) (hv : vocab.WF) (he : embed.WF) (hi : index.WF)
    {t : List Nat} (ht : InBox embed.grid t)
    {jj : Nat} (hjj : jj < vocabPerEmbed vocab (embed.tshape t) a) (tok : List Nat → Nat) (x : List Nat → ℝ) {c v : Nat}
    (hc : c < (vocab.tshape [vocabStart vocab embed t a + jj, 0]).getD 0 0) :
    embedInc (mOf (embed.tshape t) a) (nOf (embed.tshape t) a) (kOf (embed.tshape t) a) (jj * vocab.basetile.getD 0 0)
      ((vocab.tshape [vocabStart vocab embed t a + jj, 0]).getD 0 0)
      (fun i => tok (globIdx index.basetile (t.eraseIdx a) (unlin (index.tshape (t.eraseIdx a)) i)))
      (fun i => x (globIdx embed.basetile t (unlin (embed.tshape t) i))) (c + (vocab.tshape [vocabStart vocab embed t a + jj, 0]).getD 0 0 * v) =
    ∑ l ∈ box (embed.tshape t), if (globIdx embed.basetile t l).getD a 0 = (vocabStart vocab embed t a + jj) * vocab.basetile.getD 0 0 + c ∧
      tok ((globIdx embed.basetile t l).eraseIdx a) = v then x (globIdx embed.basetile t l) else 0 := by
  have hsl := h.index
  have hax' : a < (embed.tshape t).length := by rw [he.tshape_length ht]; exact hsl.axis
  obtain ⟨g1, g2, g3, g4⟩ := h.arith hv he ht hjj
  have hP := he.tshape_pos ht
  have hgl : ∀ l, InBox (embed.tshape t) l → (globIdx embed.basetile t l).getD a 0 = t.getD a 0 * embed.basetile.getD a 0 + l.getD a 0 := fun l hl =>
    getD_globIdx (p := a) (B := embed.basetile) (T := t) (L := l) (by rw [ht.length, he.grid_length, he.2.2])
          (by rw [hl.length, he.tshape_length ht, he.2.2]) (by rw [he.2.2]; exact hsl.axis)
  have hq : jj * vocab.basetile.getD 0 0 + c < kOf (embed.tshape t) a := by simp only [kOf]; omega
  have key := sum_axis_cells hP hax' hq (fun l => if tok ((globIdx embed.basetile t l).eraseIdx a) = v then x (globIdx embed.basetile t l) else 0)
  rw [sum_filter] at key
  rw [embedInc]
  rw [cell2_mod hc, cell2_div hc]
  trans
  swap
  · refine (sum_congr rfl (fun l hl => ?_) : ∑ l ∈ box (embed.tshape t), (if l.getD a 0 = jj * vocab.basetile.getD 0 0 + c then
      (if tok ((globIdx embed.basetile t l).eraseIdx a) = v then x (globIdx embed.basetile t l) else 0) else 0) = _)
    rw [mem_box] at hl
    rw [hgl l hl, g2]
    by_cases hlc : l.getD a 0 = jj * vocab.basetile.getD 0 0 + c
    · rw [if_pos hlc]
      simp only [hlc, show t.getD a 0 * embed.basetile.getD a 0 + (jj * vocab.basetile.getD 0 0 + c) =
        t.getD a 0 * embed.basetile.getD a 0 + jj * vocab.basetile.getD 0 0 + c by omega, true_and]
    · rw [if_neg hlc, if_neg]
      rintro ⟨r1, -⟩
      omega
  · rw [key]
    refine sum_congr rfl (fun i2 h2 => sum_congr rfl (fun i1 h1 => ?_))
    rw [mem_range] at h1 h2
    have hcell : i1 + mOf (embed.tshape t) a * (jj * vocab.basetile.getD 0 0 + c + kOf (embed.tshape t) a * i2) < (embed.tshape t).prod := by
      rw [size3 hax']; exact cell3_lt h1 hq h2
    have hl := unlin_inBox hP (i1 + mOf (embed.tshape t) a * (jj * vocab.basetile.getD 0 0 + c + kOf (embed.tshape t) a * i2))
    obtain ⟨p1, p0, p2, q1, q0, q2, r1, r2, r3⟩ := view3 hax' hl
    rw [lin_unlin hcell] at r1
    obtain ⟨rfl, rfl', rfl⟩ := cell3_inj h1 q1 hq q0 r1
    rw [← r2, ← hsl.tshape he ht, unlin_lin (by rw [hsl.tshape he ht]; exact hl.erase a), hsl.glob he ht hl]

/-- An element of tile `t` of `embed` belongs to a tile of `vocab` that has a task for `t`. -/
theorem EmbedFit.cover {index vocab embed : Tensor} {a : Nat} (h : EmbedFit index vocab embed a) (hv : vocab.WF) (he : embed.WF)
    {t l : List Nat} (ht : InBox embed.grid t) (hl : InBox (embed.tshape t) l) {j c : Nat} (hc : c < (vocab.tshape [j, 0]).getD 0 0) (hj : j < vocab.ntiles)
    (e : (globIdx embed.basetile t l).getD a 0 = j * vocab.basetile.getD 0 0 + c) :
    vocabStart vocab embed t a ≤ j ∧ j - vocabStart vocab embed t a < vocabPerEmbed vocab (embed.tshape t) a := by
  have hax := h.index.axis
  have hax' : a < (embed.tshape t).length := by rw [he.tshape_length ht]; exact hax
  have hla := hl.getD hax'
  rw [getD_globIdx (p := a) (B := embed.basetile) (T := t) (L := l) (by rw [ht.length, he.grid_length, he.2.2])
          (by rw [hl.length, he.tshape_length ht, he.2.2]) (by rw [he.2.2]; exact hax)] at e
  rw [h.tshape hv hj, List.getD_cons_zero] at hc
  obtain ⟨K, V, b, B, hs, hb, hK, hVB, ⟨q, hq⟩, hKp, hV, hbp⟩ := h.vocab_eq hv
  simp only [vocabStart, vocabPerEmbed]
  simp only [hb, List.getD_cons_zero] at e hc ⊢
  have e1 : t.getD a 0 * embed.basetile.getD a 0 / b = t.getD a 0 * q := by
    rw [hq, show t.getD a 0 * (b * q) = b * (t.getD a 0 * q) by ring, Nat.mul_div_cancel_left _ hbp]
  rw [e1]
  rw [hq, show t.getD a 0 * (b * q) = (t.getD a 0 * q) * b by ring] at e
  have h1 : t.getD a 0 * q ≤ j := by
    by_contra hcon
    have := Nat.mul_le_mul_right b (Nat.succ_le_of_lt (Nat.not_le.1 hcon))
    rw [Nat.succ_mul] at this
    omega
  refine ⟨h1, (lt_grid_iff (by omega) hbp).2 ?_⟩
  rw [Nat.sub_mul]
  have := Nat.mul_le_mul_right b h1
  omega

/-- Every tile of `vocab` has a task. -/
theorem EmbedFit.some_tile {index vocab embed : Tensor} {a : Nat} (h : EmbedFit index vocab embed a) (hv : vocab.WF) (he : embed.WF)
    {j : Nat} (hj : j < vocab.ntiles) :
    ∃ t, InBox embed.grid t ∧ vocabStart vocab embed t a ≤ j ∧ j - vocabStart vocab embed t a < vocabPerEmbed vocab (embed.tshape t) a := by
  have hax := h.index.axis
  have hts := h.tshape hv hj
  have hnt := h.ntiles hv
  obtain ⟨K, V, b, B, hs, hb, hK, hVB, ⟨q, hq⟩, hKp, hV, hbp⟩ := h.vocab_eq hv
  simp only [hs, hb, List.getD_cons_zero] at hts hnt
  have hlt : j * b < K := (lt_grid_iff hKp hbp).1 (by rw [← hnt]; exact hj)
  have hI := unlin_inBox (Pos.eraseIdx he.1 a) 0
  have hJ := hI.insert hax (j := j * b) (by rw [← hK]; exact hlt)
  have := globIdx_tile_loc (B := embed.basetile) (I := (unlin (embed.shape.eraseIdx a) 0).insertIdx a (j * b)) (by rw [hJ.length, he.2.2])
  refine ⟨_, he.tileIdx_inBox hJ, h.cover hv he (he.tileIdx_inBox hJ) (he.locIdx_inBox hJ) (c := 0) ?_ hj ?_⟩
  · rw [hts, List.getD_cons_zero]; omega
  · rw [this, getD_insert, hb]
    · simp
    · rw [hI.length, List.length_eraseIdx_of_lt hax]; omega

end NNTile
