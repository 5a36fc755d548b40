import Verif.Model.Embedding
import Verif.Spec.Embedding
import Verif.Lib.FiberReduce
import Verif.Lib.ReduxSum
import Verif.Lib.Slice
/-! `embedding`, `embedding_backward`. -/
namespace NNTile
open Finset
variable {α : Type}

theorem tokenOff_ok {ks i0 : Nat} {token : Int} (h : 0 ≤ token) : tokenOff ks token i0 = .ok (i0 + ks * token.toNat) := by
  rw [tokenOff, if_neg (by omega), Nat.add_comm]

/-- The kernel of `embedding` sets the cells of its slab and no other. -/
theorem embedding_run {asIdx : α → Int} {m n k k0 ks V : Nat} {index vocab o : Buf α} {w y : Nat → α} (hk : k0 + ks ≤ k) (ho : o.size = m * (k * n))
    (hi : index.size = m * n) (hw : ∀ j, j < m * n → index.data j = some (w j)) (hv : vocab.size = ks * V) (hy : ∀ j, j < ks * V → vocab.data j = some (y j))
    (hok : ∀ j, j < m * n → 0 ≤ asIdx (w j) ∧ asIdx (w j) < V) :
    ∃ b', embeddingKernel asIdx m n k k0 ks index vocab o = .ok b' ∧ b'.size = o.size ∧
      (∀ i1 i0 i2, i1 < m → i0 < ks → i2 < n → b'.data (i1 + m * ((k0 + i0) + k * i2)) = some (y (i0 + ks * (asIdx (w (i1 + m * i2))).toNat))) ∧
      (∀ i1 q i2, i1 < m → q < k → i2 < n → (q < k0 ∨ k0 + ks ≤ q) → b'.data (i1 + m * (q + k * i2)) = o.data (i1 + m * (q + k * i2))) := by
  have key := Puts.forN (o := o) (n := n) (f := fun i2 embed => forN m (fun i1 embed => do
      let token ← index.rd (i2*m + i1)
      forN ks (fun i0 embed => do
        let o ← tokenOff ks (asIdx token) i0
        let v ← vocab.rd o
        embed.wr ((i2*k + k0)*m + i1 + i0*m) v) embed) embed)
    (P := fun i2 c => ∃ i1, i1 < m ∧ ∃ i0, i0 < ks ∧ c = i1 + m * ((k0 + i0) + k * i2))
    (v := fun c => y ((c / m % k - k0) + ks * (asIdx (w (c % m + m * (c / m / k)))).toNat))
    (by
      intro i2 h2
      apply Puts.forN (f := fun i1 embed => do
          let token ← index.rd (i2*m + i1)
          forN ks (fun i0 embed => do
            let o ← tokenOff ks (asIdx token) i0
            let v ← vocab.rd o
            embed.wr ((i2*k + k0)*m + i1 + i0*m) v) embed)
        (P := fun i1 c => ∃ i0, i0 < ks ∧ c = i1 + m * ((k0 + i0) + k * i2))
      · intro i1 h1
        have hc := cell2_lt h1 h2
        obtain ⟨t1, t2⟩ := hok _ hc
        refine Puts.pre (f := fun token embed => forN ks (fun i0 embed => do
            let o ← tokenOff ks (asIdx token) i0
            let v ← vocab.rd o
            embed.wr ((i2*k + k0)*m + i1 + i0*m) v) embed) (x := w (i1 + m * i2)) ?_ ?_
        · rw [show i2 * m + i1 = i1 + m * i2 by ring]; exact Buf.rd_ok (by omega) (hw _ hc)
        · apply Puts.forN (f := fun i0 embed => do
            let o ← tokenOff ks (asIdx (w (i1 + m * i2))) i0
            let v ← vocab.rd o
            embed.wr ((i2*k + k0)*m + i1 + i0*m) v) (P := fun i0 c => c = i1 + m * ((k0 + i0) + k * i2))
          · intro i0 h0
            apply Puts.step
            · rw [ho]; exact cell3_lt h1 (by omega) h2
            · intro d hd he
              have hcell := cell2_lt h0 (show (asIdx (w (i1 + m * i2))).toNat < V by omega)
              rw [tokenOff_ok t1, M.bind_ok, Buf.rd_ok (by omega) (hy _ hcell), M.bind_ok,
                show (i2 * k + k0) * m + i1 + i0 * m = i1 + m * ((k0 + i0) + k * i2) by ring, Buf.wr_put hd]
              simp only [cell2_mod h1, cell2_div h1, cell2_mod (show k0 + i0 < k by omega), cell2_div (show k0 + i0 < k by omega), Nat.add_sub_cancel_left]
          · rintro i j hij hj c rfl h'
            have := (cell3_inj h1 h1 (by omega) (by omega) h').2.1
            omega
      · rintro i j hij hj c ⟨i0, h0, rfl⟩ ⟨j0, h0', h'⟩
        have := (cell3_inj (by omega) hj (by omega) (by omega) h').1
        omega)
    (by
      rintro i j hij hj c ⟨i1, h1, i0, h0, rfl⟩ ⟨j1, h1', j0, h0', h'⟩
      have := (cell3_inj h1 h1' (by omega) (by omega) h').2.2
      omega)
  obtain ⟨b', e1, e2, e3, e4⟩ := key.run
  refine ⟨b', e1, e2, ?_, ?_⟩
  · intro i1 i0 i2 h1 h0 h2
    rw [e3 _ ⟨i2, h2, i1, h1, i0, h0, rfl⟩]
    simp only [cell2_mod h1, cell2_div h1, cell2_mod (show k0 + i0 < k by omega), cell2_div (show k0 + i0 < k by omega), Nat.add_sub_cancel_left]
  · intro i1 q i2 h1 hq h2 hout
    apply e4
    rintro ⟨j2, h2', j1, h1', j0, h0', h'⟩
    have := (cell3_inj h1 h1' hq (by omega) h').2.1
    omega

/-- The checks accept tensors that fit. -/
theorem EmbedFit.check {index vocab embed : Tensor} {a : Nat} (hi : index.WF) (hv : vocab.WF) (he : embed.WF) (h : EmbedFit index vocab embed a) :
    embeddingCheck index vocab embed a = .ok () := by
  have hax := h.index.axis
  have hn : index.shape.length + 1 = embed.shape.length := by rw [h.index.shape, List.length_eraseIdx_of_lt hax]; omega
  have hsh := h.index.shape
  have hbt := h.index.basetile
  have hvl := hv.2.2
  have hvn := h.ndim
  have gD : ∀ (L : List Nat) (i : Nat), i < a → (L.eraseIdx a).getD i 0 = L.getD i 0 := by
    intro L i hia
    simp [List.getD_eq_getElem?_getD, List.getElem?_eraseIdx, hia]
  have gD' : ∀ (L : List Nat) (i : Nat), (L.eraseIdx a).getD (a + i) 0 = L.getD (a + i + 1) 0 := by
    intro L i
    simp [List.getD_eq_getElem?_getD, List.getElem?_eraseIdx]
  have c1 : forCheck ((a : Int) - 1).toNat (fun i => checkPair index embed i i) = .ok () := by
    refine (Check.forCheck (fun i hi' => checkPair_check hi he (i := i) (j := i) (by simp only [Tensor.ndim]; omega) (by simp only [Tensor.ndim]; omega))).ok ?_
    intro i hi'
    rw [hsh, hbt, gD _ _ (by omega), gD _ _ (by omega)]
    exact ⟨rfl, rfl⟩
  have c2 : forCheck (index.ndim - a) (fun i => checkPair index embed (a + i) (a + i + 1)) = .ok () := by
    refine (Check.forCheck (fun i hi' => checkPair_check hi he (i := a + i) (j := a + i + 1) (by omega)
      (by simp only [Tensor.ndim] at *; omega))).ok ?_
    intro i hi'
    rw [hsh, hbt, gD', gD']
    exact ⟨rfl, rfl⟩
  simp only [embeddingCheck]
  rw [throwIf_neg (by simp only [Tensor.ndim]; omega), M.bind_ok, throwIf_neg (by simp only [Tensor.ndim]; omega), M.bind_ok, c1, M.bind_ok, if_neg (by omega)]
  simp only [Int.toNat_natCast]
  rw [c2, M.bind_ok, vget_ok hax, M.bind_ok, vget_ok (by omega), M.bind_ok, throwIf_neg (by simp only [ne_eq, not_not]; exact h.size.symm), M.bind_ok,
    vget_ok (by rw [he.2.2]; exact hax), M.bind_ok, vget_ok (by omega), M.bind_ok, throwIf_neg (by simp only [ne_eq, not_not]; exact Nat.mod_eq_zero_of_dvd h.tile)]

namespace EmbedFit
variable {index vocab embed : Tensor} {a : Nat} (h : EmbedFit index vocab embed a) (hv : vocab.WF) (he : embed.WF)
include h hv

/-- `vocab` is a matrix in one column of tiles. -/
theorem vocab_eq : ∃ K V b B, vocab.shape = [K, V] ∧ vocab.basetile = [b, B] ∧ K = embed.shape.getD a 0 ∧ V ≤ B ∧ b ∣ embed.basetile.getD a 0 ∧
    0 < K ∧ 0 < V ∧ 0 < b := by
  obtain ⟨K, V, hs⟩ := List.length_eq_two.1 h.ndim
  obtain ⟨b, B, hb⟩ := List.length_eq_two.1 (hv.2.2.trans h.ndim)
  have h1 := h.size; have h2 := h.tokens; have h3 := h.tile; have h4 := hv.1; have h5 := hv.2.1
  rw [hs] at h1 h2 h4
  rw [hb] at h2 h3 h5
  simp only [Pos_cons] at h4 h5
  exact ⟨K, V, b, B, hs, hb, h1, h2, h3, h4.1, h4.2.1, h5.1⟩

theorem grid : vocab.grid = [(vocab.shape.getD 0 0 - 1) / vocab.basetile.getD 0 0 + 1, 1] := by
  obtain ⟨K, V, b, B, hs, hb, -, hVB, -, -, hV, -⟩ := h.vocab_eq hv
  rw [Tensor.grid, hs, hb]
  simp [gridOf, Nat.div_eq_of_lt (show V - 1 < B by omega)]

theorem ntiles : vocab.ntiles = (vocab.shape.getD 0 0 - 1) / vocab.basetile.getD 0 0 + 1 := by
  rw [Tensor.ntiles, h.grid hv]; simp

theorem tindex {j : Nat} (hj : j < vocab.ntiles) : vocab.tindex j = [j, 0] := by
  rw [h.ntiles hv] at hj
  rw [Tensor.tindex, h.grid hv]
  simp only [unlin, Nat.mod_eq_of_lt hj, Nat.mod_one]

theorem tshape {j : Nat} (hj : j < vocab.ntiles) :
    vocab.tshape [j, 0] = [min (vocab.basetile.getD 0 0) (vocab.shape.getD 0 0 - j * vocab.basetile.getD 0 0), vocab.shape.getD 1 0] := by
  obtain ⟨K, V, b, B, hs, hb, -, hVB, -, -, hV, -⟩ := h.vocab_eq hv
  rw [Tensor.tshape, hs, hb]
  simp [tileShape, hVB]

theorem glob (j c v : Nat) : globIdx vocab.basetile [j, 0] [c, v] = [j * vocab.basetile.getD 0 0 + c, v] := by
  obtain ⟨K, V, b, B, hs, hb, -⟩ := h.vocab_eq hv
  rw [hb]
  simp [globIdx]

theorem tile_inBox {j : Nat} (hj : j < vocab.ntiles) : InBox vocab.grid [j, 0] := by
  rw [h.ntiles hv] at hj
  rw [h.grid hv]
  exact ⟨hj, by omega, trivial⟩

theorem lin_tile {j : Nat} : lin vocab.grid [j, 0] = j := by
  rw [h.grid hv]; simp [lin]

/-- Arithmetic of the tiles of `vocab` along the vectors that belong to a tile of `embed`. -/
theorem arith {t : List Nat} (he : embed.WF) (ht : InBox embed.grid t) {jj : Nat} (hjj : jj < vocabPerEmbed vocab (embed.tshape t) a) :
    vocabStart vocab embed t a + jj < vocab.ntiles ∧
    (vocabStart vocab embed t a + jj) * vocab.basetile.getD 0 0 = t.getD a 0 * embed.basetile.getD a 0 + jj * vocab.basetile.getD 0 0 ∧
    jj * vocab.basetile.getD 0 0 < (embed.tshape t).getD a 0 ∧
    (vocab.tshape [vocabStart vocab embed t a + jj, 0]).getD 0 0 = min (vocab.basetile.getD 0 0) ((embed.tshape t).getD a 0 - jj * vocab.basetile.getD 0 0) := by
  have hax := h.index.axis
  have hT := ht.getD (a := a) (by rw [he.grid_length]; exact hax)
  have hSa := getD_tileShape he.2.2 (by rw [ht.length, he.grid_length]) hax (p := a) (T := t)
  have hg := getD_gridOf he.2.2 hax
  rw [Tensor.grid, hg] at hT
  have hnt := h.ntiles hv
  have hts := fun j => h.tshape hv (j := j)
  obtain ⟨K, V, b, B, hs, hb, hK, hVB, ⟨q, hq⟩, hKp, hV, hbp⟩ := h.vocab_eq hv
  have hBp := he.2.1.getD (a := a) (by rw [he.2.2]; exact hax)
  simp only [hs, hb, List.getD_cons_zero] at hnt hts ⊢
  unfold vocabStart vocabPerEmbed at *
  rw [Tensor.tshape] at *
  simp only [hb, List.getD_cons_zero] at hjj ⊢
  rw [hSa] at hjj ⊢
  rw [← hK] at hjj hT ⊢
  rw [hq] at hjj hT hBp ⊢
  generalize t.getD a 0 = T at *
  have e1 : T * (b * q) / b = T * q := by rw [show T * (b * q) = b * (T * q) by ring, Nat.mul_div_cancel_left _ hbp]
  rw [e1]
  have hlt : T * (b * q) < K := (lt_grid_iff hKp hBp).1 hT
  have hjj' : jj * b < min (b * q) (K - T * (b * q)) := (lt_grid_iff (by omega) hbp).1 hjj
  have e2 : (T * q + jj) * b = T * (b * q) + jj * b := by ring
  have hlt2 : (T * q + jj) * b < K := by rw [e2]; omega
  have hnt2 : T * q + jj < vocab.ntiles := by rw [hnt]; exact (lt_grid_iff hKp hbp).2 hlt2
  refine ⟨hnt2, e2, hjj', ?_⟩
  rw [hts _ hnt2, List.getD_cons_zero, e2]
  -- a full tile of `embed` is a whole number of tiles of `vocab`
  by_cases hfull : b * q ≤ K - T * (b * q)
  · rw [Nat.min_eq_left hfull]
    rw [Nat.min_eq_left hfull] at hjj'
    have h3 : jj < q := by
      by_contra hc
      have := Nat.mul_le_mul_left b (Nat.not_lt.1 hc)
      rw [Nat.mul_comm] at hjj'
      omega
    have h4 : b * (jj + 1) ≤ b * q := Nat.mul_le_mul_left b h3
    have h5 : b * (jj + 1) = jj * b + b := by ring
    omega
  · omega

end EmbedFit

/-- A tile of `vocab`. -/
theorem vocab_tile {index vocab embed : Tensor} {a : Nat} {s : Store α} (hv : vocab.Ready s) (h : EmbedFit index vocab embed a)
    {y : List Nat → α} (hy : vocab.Holds s y) {j : Nat} (hj : j < vocab.ntiles) :
    (s (vocab.id, j)).size = (vocab.tshape [j, 0]).getD 0 0 * vocab.shape.getD 1 0 ∧
      ∀ c, c < (vocab.tshape [j, 0]).getD 0 0 * vocab.shape.getD 1 0 →
        (s (vocab.id, j)).data c = some (y [j * vocab.basetile.getD 0 0 + c % (vocab.tshape [j, 0]).getD 0 0, c / (vocab.tshape [j, 0]).getD 0 0]) := by
  have ht := h.tile_inBox hv.1 hj
  have hts := h.tshape hv.1 hj
  have hsz := hv.2.size ht
  have hpos := hv.1.tshape_pos ht
  rw [h.lin_tile hv.1, hts] at hsz
  have hts0 : (vocab.tshape [j, 0]).getD 0 0 = min (vocab.basetile.getD 0 0) (vocab.shape.getD 0 0 - j * vocab.basetile.getD 0 0) := by rw [hts]; rfl
  refine ⟨by rw [hsz, hts0]; simp, fun c hc => ?_⟩
  rw [← hts0] at hts
  obtain ⟨g1, g2, g3⟩ := cell2_split hc
  have hl : InBox (vocab.tshape [j, 0]) [c % (vocab.tshape [j, 0]).getD 0 0, c / (vocab.tshape [j, 0]).getD 0 0] := by
    conv => arg 1; rw [hts]
    exact ⟨g1, g2, trivial⟩
  have := Tensor.Holds.same rfl rfl hv.1 hy ht hl
  rw [h.glob hv.1, h.lin_tile hv.1] at this
  rw [← this]
  congr 1
  conv => rhs; arg 1; rw [hts]
  simp only [lin, Nat.mul_zero, Nat.add_zero]
  omega

end NNTile
