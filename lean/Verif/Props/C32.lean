import Verif.Lib.Normalize
import Verif.Props.C31
import Verif.Lib.Seq
import Verif.Lib.Nrm2
/-!
# C32 — `normalize`

`normalize` is documented to replace the elements of a slice by `(x - mean) / sqrt(var + eps) * gamma + beta`, where `mean = sum / l` and
`var = norm² / l - mean²`. With exact arithmetic this is true for every slice with a non-zero norm (`C32_normalize_partial`); for a slice of zeros the
code divides zero by zero and writes NaN (`C32_zero_slice`, `C32_refuted`), although `eps > 0` was required in order to exclude that.
-/
namespace NNTile
open Finset

/-- The value that is promised for an element `v` of a slice with sum `S` and norm `N`. -/
noncomputable def normalizeSpec (l eps gamma beta S N v : ℝ) : ℝ := (v - S / l) / Real.sqrt (max (N ^ 2 / l - (S / l) ^ 2) 0 + eps) * gamma + beta

/-- A slice with sum `0` and norm `0` becomes NaN, all others get the promised value. -/
theorem C32_normalize_exact {gb src dst : Tensor} {a : Nat} {s : Store XReal} (hgb : gb.Ready s) (hs : src.Ready s) (hd : dst.Ready s)
    (hid1 : gb.id ≠ dst.id) (hid2 : src.id ≠ dst.id) (hg : gb.shape = [2]) (hg1 : gb.ntiles = 1) (h : src.MseOf dst a)
    {l : Int} (hl : 0 < l) {eps : ℝ} (he : 0 < eps) (gamma beta : ℝ) (hgv : gb.Holds s (fun I => if I.headD 0 = 0 then .fin gamma else .fin beta))
    (S N x : List Nat → ℝ) (hN : ∀ I, 0 ≤ N I) (hS : ∀ I, N I = 0 → S I = 0)
    (hw : src.Holds s (fun I => if I.headD 0 = 0 then .fin (S I.tail) else .fin (N I.tail))) (hx : dst.Holds s (fun I => .fin (x I))) :
    Computes (normalizeAsync gb src dst l (.fin eps) a) s dst
      (fun I => if N (I.eraseIdx a) = 0 then .nan else .fin (normalizeSpec l eps gamma beta (S (I.eraseIdx a)) (N (I.eraseIdx a)) (x I))) := by
  have hn := h.ndim_eq hd.1
  have hax := h.axis
  have hc := (checkMse_check hd.1 hs.1 (a := a) hax hn (by rw [h.shape]; rfl) (by rw [h.basetile]; rfl)).ok h
  have hsl := h.slice
  simp only [normalizeAsync]
  rw [throwIf_neg (by rw [hg]; simp), M.bind_ok, vget_ok (by rw [hg]; simp), M.bind_ok, throwIf_neg (by rw [hg]; simp), M.bind_ok,
    throwIf_neg (by rw [hg1]; simp), M.bind_ok, throwIf_neg (by simp [hn]), M.bind_ok, throwIf_neg (by rw [← hn]; simp only [Tensor.ndim]; omega), M.bind_ok,
    throwIf_neg (by omega), M.bind_ok, throwIf_neg (by
      rw [XReal.zero_def, XReal.ltb_fin_not (not_lt.2 he.le), XReal.eqb_fin_ne he.ne']; simp), M.bind_ok,
    throwIf_neg (by omega), M.bind_ok, throwIf_neg (by simp only [Tensor.ndim]; omega), M.bind_ok, vget_ok (by rw [h.shape]; simp), M.bind_ok,
    throwIf_neg (by rw [h.shape]; simp), M.bind_ok, vget_ok (by rw [h.basetile]; simp), M.bind_ok, throwIf_neg (by rw [h.basetile]; simp), M.bind_ok]
  simp only [Int.toNat_natCast, hc, M.bind_ok]
  rw [Tensor.handleL_ok (by omega), M.bind_ok]
  have hloop : (forTasks src.ntiles (fun i => do
      let src_tile_handle ← src.handleL i
      let g ← vget dst.grid a
      forTasks g (fun j => do
        let dst_tile_handle ← dst.handleAt (mseTileIndex (src.tindex i) a j)
        let S ← dst.tshapeAt (mseTileIndex (src.tindex i) a j)
        .ok [submitNormalize (mOf S a) (nOf S a) (kOf S a) l (XReal.fin eps) (gb.id, 0) src_tile_handle dst_tile_handle])) : M (List (Task1 XReal))) =
      sliceLoop src.sl dst a (fun S h h' _ => .ok (submitNormalize (mOf S a) (nOf S a) (kOf S a) l (XReal.fin eps) (gb.id, 0) h h')) := by
    simp only [sliceLoop, h.sl_ntiles, mseTileIndex, h.sl_tindex, List.tail_cons, M.bind_ok]
    apply forTasks_congr
    intro i hi
    rw [Tensor.handleL_ok (by rw [h.sl_ntiles]; exact hi), Tensor.handleL_ok hi]
    rfl
  rw [hloop]
  refine sliceLoop_run hd hsl (fun t => submitNormalize (mOf (dst.tshape t) a) (nOf (dst.tshape t) a) (kOf (dst.tshape t) a) l (XReal.fin eps) (gb.id, 0)
    (src.id, lin src.sl.grid (t.eraseIdx a)) (dst.id, lin dst.grid t)) (fun t ht => ⟨rfl, rfl, by simp [submitNormalize, task2, hid1, hid2]⟩) _ ?_
  intro t ht
  have hte := hsl.tile_inBox hd.1 ht
  have hsz := hd.2.size ht
  have hax' : a < (dst.tshape t).length := by rw [hd.1.tshape_length ht]; exact h.axis
  have hpe : (src.sl.tshape (t.eraseIdx a)).prod = mOf (dst.tshape t) a * nOf (dst.tshape t) a := by
    rw [hsl.tshape hd.1 ht, prod_erase]; rfl
  obtain ⟨m1, m2⟩ := mse_tile hs h hw hte
  rw [hpe] at m1 m2
  rw [size3 hax'] at hsz
  obtain ⟨gs, gv⟩ := gamma_beta_tile hgb hg hg1 hgv
  obtain ⟨b', e1, e2, e3⟩ := normalize_run (l := l) (eps := XReal.fin eps) (o := s (dst.id, lin dst.grid t))
    (x := fun j => .fin (x (globIdx dst.basetile t (unlin (dst.tshape t) j)))) (m := mOf (dst.tshape t) a) (n := nOf (dst.tshape t) a) (k := kOf (dst.tshape t) a)
    hsz
    (fun j hj => by
      rw [← size3 hax'] at hj
      have := Tensor.Holds.same rfl rfl hd.1 hx ht (unlin_inBox (hd.1.tshape_pos ht) j)
      rwa [lin_unlin hj] at this) m1 m2 gs (g := fun j => if j = 0 then .fin gamma else .fin beta) gv
  refine ⟨b', e1, e2, ?_⟩
  intro l' hl'
  obtain ⟨i1, i0, i2, g1, g0, g2, q1, q2, -⟩ := view3 hax' hl'
  rw [q1, e3 i1 i0 i2 g1 g0 g2, ← q1, ← q2, ← hsl.tshape hd.1 ht]
  have hle : InBox (src.sl.tshape (t.eraseIdx a)) (l'.eraseIdx a) := by rw [hsl.tshape hd.1 ht]; exact hl'.erase a
  have z0 : (0 + 2 * lin (src.sl.tshape (t.eraseIdx a)) (l'.eraseIdx a)) / 2 = lin (src.sl.tshape (t.eraseIdx a)) (l'.eraseIdx a) := by omega
  have z1 : (1 + 2 * lin (src.sl.tshape (t.eraseIdx a)) (l'.eraseIdx a)) / 2 = lin (src.sl.tshape (t.eraseIdx a)) (l'.eraseIdx a) := by omega
  have z2 : (0 + 2 * lin (src.sl.tshape (t.eraseIdx a)) (l'.eraseIdx a)) % 2 = 0 := by omega
  have z3 : (1 + 2 * lin (src.sl.tshape (t.eraseIdx a)) (l'.eraseIdx a)) % 2 = 1 := by omega
  simp only [unlin_lin hl', z0, z1, z2, z3, unlin_lin hle, hsl.glob hd.1 ht hl', List.headD_cons, List.tail_cons, if_true, one_ne_zero, if_false]
  congr 1
  split
  · next h0 => rw [hS _ h0, h0, normalizeVal_zero l he hl]
  · next h0 => rw [normalizeVal_fin hl he (lt_of_le_of_ne (hN _) (Ne.symm h0)), normalizeSpec]

/-- If no slice has norm zero, all elements get the promised values. -/
theorem C32_normalize_partial {gb src dst : Tensor} {a : Nat} {s : Store XReal} (hgb : gb.Ready s) (hs : src.Ready s) (hd : dst.Ready s)
    (hid1 : gb.id ≠ dst.id) (hid2 : src.id ≠ dst.id) (hg : gb.shape = [2]) (hg1 : gb.ntiles = 1) (h : src.MseOf dst a)
    {l : Int} (hl : 0 < l) {eps : ℝ} (he : 0 < eps) (gamma beta : ℝ) (hgv : gb.Holds s (fun I => if I.headD 0 = 0 then .fin gamma else .fin beta))
    (S N x : List Nat → ℝ) (hN : ∀ I, 0 < N I)
    (hw : src.Holds s (fun I => if I.headD 0 = 0 then .fin (S I.tail) else .fin (N I.tail))) (hx : dst.Holds s (fun I => .fin (x I))) :
    Computes (normalizeAsync gb src dst l (.fin eps) a) s dst
      (fun I => .fin ((x I - S (I.eraseIdx a) / l) / Real.sqrt (max (N (I.eraseIdx a) ^ 2 / l - (S (I.eraseIdx a) / l) ^ 2) 0 + eps) * gamma + beta)) :=
  (C32_normalize_exact hgb hs hd hid1 hid2 hg hg1 h hl he gamma beta hgv S N x (fun I => (hN I).le) (fun I h0 => absurd h0 (hN I).ne') hw hx).congr
    (fun I _ => if_neg (hN _).ne')

/-- Sum over the slice of `x` that contains the index `I`. -/
noncomputable def sliceSum (T : Tensor) (a : Nat) (x : List Nat → ℝ) (I : List Nat) : ℝ := ∑ L ∈ range (T.shape.getD a 0), x (I.set a L)

/-- `sumnorm` of `dst` followed by `normalize` of `dst` in place, with `l` the length of the axis: this is normalisation of the slices to mean zero and
variance one (up to `eps`), then scaling and shift. A slice that consists of zeros becomes NaN. -/
theorem C32_layer_norm_exact {gb sn dst : Tensor} {a : Nat} {s : Store XReal} (hgb : gb.Ready s) (hs : sn.Ready s) (hd : dst.Ready s)
    (hid1 : gb.id ≠ dst.id) (hid2 : sn.id ≠ dst.id) (hid3 : gb.id ≠ sn.id) (hg : gb.shape = [2]) (hg1 : gb.ntiles = 1) (h : sn.MseOf dst a)
    {eps : ℝ} (he : 0 < eps) (gamma beta : ℝ) (hgv : gb.Holds s (fun I => if I.headD 0 = 0 then .fin gamma else .fin beta))
    (x : List Nat → ℝ) (hx : dst.Holds s (fun I => .fin (x I))) :
    ∃ ts1 ts2 s', sumnormAsync dst sn a = .ok ts1 ∧ normalizeAsync gb sn dst (dst.shape.getD a 0) (.fin eps) a = .ok ts2 ∧
      runAll1 (ts1 ++ ts2) s = .ok s' ∧ OnlyChanged [sn.id, dst.id] s s' ∧
      dst.Holds s' (fun I =>
        let n : ℝ := (dst.shape.getD a 0 : ℕ)
        let mean := sliceSum dst a x I / n
        let var := sliceSum dst a (fun J => (x J - mean) ^ 2) I / n
        if (∀ L, L < dst.shape.getD a 0 → x (I.set a L) = 0) then .nan
        else .fin ((x I - mean) / Real.sqrt (var + eps) * gamma + beta)) := by
  obtain ⟨ts1, s1, e1, e2, e3, e4, e5⟩ := sumnorm_computes hd hs hid2.symm h x hx
  have hd1 : dst.Ready s1 := e4.ready hd (by simpa using hid2.symm)
  have hlp : 0 < dst.shape.getD a 0 := hd.1.1.getD h.axis
  have key := C32_normalize_exact (e4.ready hgb (by simpa using hid3)) e5 hd1 hid1 hid2 hg hg1 h (l := dst.shape.getD a 0) (by exact_mod_cast hlp) he gamma beta
    (e4.holds hgv (by simpa using hid3)) (fun I => ∑ L ∈ range (dst.shape.getD a 0), x (I.insertIdx a L))
    (fun I => Real.sqrt (∑ L ∈ range (dst.shape.getD a 0), x (I.insertIdx a L) ^ 2)) x (fun I => Real.sqrt_nonneg _) (by
      intro I h0
      rw [Real.sqrt_eq_zero (sum_nonneg (fun _ _ => sq_nonneg _)), sum_eq_zero_iff_of_nonneg (fun _ _ => sq_nonneg _)] at h0
      exact sum_eq_zero (fun L hL => by simpa using h0 L hL)) (by
      intro I hI
      rw [e3 I hI]
      simp only [snPair]) (e4.holds hx (by simpa using hid2.symm))
  obtain ⟨ts2, s2, f1, f2, f3, f4, -⟩ := key
  refine ⟨ts1, ts2, s2, e1, f1, by rw [runAll1_append, e2, M.bind_ok, f2], (e4.trans f4).mono (by simp), ?_⟩
  intro I hI
  have ha : a < I.length := by rw [hI.length]; exact h.axis
  rw [f3 I hI]
  congr 1
  simp only [set_insert ha, sliceSum]
  have hz : Real.sqrt (∑ L ∈ range (dst.shape.getD a 0), x (I.set a L) ^ 2) = 0 ↔ ∀ L, L < dst.shape.getD a 0 → x (I.set a L) = 0 := by
    rw [Real.sqrt_eq_zero (sum_nonneg (fun _ _ => sq_nonneg _)), sum_eq_zero_iff_of_nonneg (fun _ _ => sq_nonneg _)]
    simp
  by_cases h0 : ∀ L, L < dst.shape.getD a 0 → x (I.set a L) = 0
  · rw [if_pos (hz.2 h0), if_pos h0]
  · rw [if_neg (fun hh => h0 (hz.1 hh)), if_neg h0, normalizeSpec]
    have hn : (0 : ℝ) < (dst.shape.getD a 0 : ℕ) := by exact_mod_cast hlp
    have hvar : Real.sqrt (∑ L ∈ range (dst.shape.getD a 0), x (I.set a L) ^ 2) ^ 2 / (dst.shape.getD a 0 : ℕ) -
        ((∑ L ∈ range (dst.shape.getD a 0), x (I.set a L)) / (dst.shape.getD a 0 : ℕ)) ^ 2 =
        (∑ L ∈ range (dst.shape.getD a 0), (x (I.set a L) - (∑ L ∈ range (dst.shape.getD a 0), x (I.set a L)) / (dst.shape.getD a 0 : ℕ)) ^ 2) /
          (dst.shape.getD a 0 : ℕ) := by
      rw [Real.sq_sqrt (sum_nonneg (fun _ _ => sq_nonneg _))]
      generalize hm : (∑ L ∈ range (dst.shape.getD a 0), x (I.set a L)) / ((dst.shape.getD a 0 : ℕ) : ℝ) = mu
      have hm' : ∑ L ∈ range (dst.shape.getD a 0), x (I.set a L) = mu * (dst.shape.getD a 0 : ℕ) := by rw [← hm]; field_simp
      have : ∀ L, (x (I.set a L) - mu) ^ 2 = x (I.set a L) ^ 2 - 2 * mu * x (I.set a L) + mu ^ 2 := fun L => by ring
      simp only [this, sum_add_distrib, sum_sub_distrib, ← mul_sum, hm', sum_const, card_range, nsmul_eq_mul]
      field_simp
      ring
    have hge : 0 ≤ (∑ L ∈ range (dst.shape.getD a 0), (x (I.set a L) - (∑ L ∈ range (dst.shape.getD a 0), x (I.set a L)) / (dst.shape.getD a 0 : ℕ)) ^ 2) /
          ((dst.shape.getD a 0 : ℕ) : ℝ) := div_nonneg (sum_nonneg (fun _ _ => sq_nonneg _)) hn.le
    rw [Int.cast_natCast, hvar, max_eq_left hge]

/-- The promise is false: after `sumnorm` of a slice of zeros, `normalize` with `eps = 1`, `gamma = 1`, `beta = 0` writes NaN instead of zero. -/
theorem C32_refuted : ∃ (gb src dst : Tensor) (s s' : Store XReal) (ts : List (Task1 XReal)), gb.Ready s ∧ src.Ready s ∧ dst.Ready s ∧
    gb.shape = [2] ∧ src.MseOf dst 0 ∧ dst.Holds s (fun _ => .fin 0) ∧ src.Holds s (fun _ => .fin 0) ∧
    gb.Holds s (fun I => if I.headD 0 = 0 then .fin 1 else .fin 0) ∧
    normalizeAsync gb src dst 3 (.fin 1) 0 = .ok ts ∧ runAll1 ts s = .ok s' ∧ dst.Holds s' (fun _ => .nan) := by
  obtain ⟨s, h1, h2, h3⟩ := exists_store3 (A := ⟨0, [2], [2]⟩) (B := ⟨1, [2,4], [2,2]⟩) (C := ⟨2, [3,4], [2,2]⟩)
    (fun I => if I.headD 0 = 0 then XReal.fin 1 else .fin 0) (fun _ => XReal.fin 0) (fun _ => XReal.fin 0)
    (by decide) (by decide) (by decide) (by decide) (by decide) (by decide)
  have hm : Tensor.MseOf ⟨1, [2,4], [2,2]⟩ ⟨2, [3,4], [2,2]⟩ 0 := ⟨by decide, by decide, by decide⟩
  obtain ⟨ts, s', e1, e2, e3, -, -⟩ := C32_normalize_exact h1.1 h2.1 h3.1 (by decide) (by decide) rfl (by decide) hm (l := 3) (by decide) (eps := 1)
    (by norm_num) 1 0 h1.2 (fun _ => 0) (fun _ => 0) (fun _ => 0) (fun _ => le_rfl) (fun _ _ => rfl) (by simpa using h2.2) h3.2
  exact ⟨_, _, _, s, s', ts, h1.1, h2.1, h3.1, rfl, hm, h3.2, h2.2, h1.2, e1, e2, by simpa using e3⟩

/-- Everything else is rejected: wrong `gamma_beta`, shapes or tiling that do not fit, `axis` out of range, `l <= 0`, `eps <= 0`. -/
theorem C32_rejects {α : Type} [FP α] {gb src dst : Tensor} (hs : src.WF) (hd : dst.WF) (l : Int) (eps : α) (axis : Int)
    (h : ¬ (gb.shape = [2] ∧ gb.ntiles = 1 ∧ 0 < l ∧ ¬ (FP.ltb eps 0 || FP.eqb eps 0) = true ∧ ∃ a : Nat, axis = a ∧ src.MseOf dst a)) :
    Throws (normalizeAsync gb src dst l eps axis) := by
  simp only [normalizeAsync]
  refine throws_step fun h1 => ?_
  simp only [ne_eq, not_not] at h1
  rw [vget_ok (by omega), M.bind_ok]
  refine throws_step fun h2 => throws_step fun h3 => throws_step fun h4 => throws_step fun h5 => throws_step fun h6 => throws_step fun h7 =>
    throws_step fun h8 => throws_step fun h9 => ?_
  simp only [ne_eq, not_not] at h2 h3 h4
  have hl : 0 < src.shape.length := by simp only [Tensor.ndim] at h5; omega
  rw [vget_ok hl, M.bind_ok]
  refine throws_step fun h10 => ?_
  rw [vget_ok (by rw [hs.2.2]; exact hl), M.bind_ok]
  refine throws_step fun h11 => ?_
  simp only [ne_eq, not_not] at h10 h11
  refine (checkMse_check hd hs (a := axis.toNat) (by omega) h4.symm h10 h11).throws ?_
  intro h12
  refine h ⟨?_, h3, by omega, h7, axis.toNat, by omega, h12⟩
  match hsh : gb.shape, h1 with
  | [c], _ => rw [hsh] at h2; simpa using h2

/-- A `5×7×4` tensor in `2×3×4` tiles meets the hypotheses of the theorems. -/
example : ∃ (gb sn dst : Tensor) (s : Store XReal) (x : List Nat → ℝ), dst.ntiles = 9 ∧ gb.Ready s ∧ sn.Ready s ∧ dst.Ready s ∧ gb.id ≠ dst.id ∧ sn.id ≠ dst.id ∧
    gb.id ≠ sn.id ∧ gb.shape = [2] ∧ gb.ntiles = 1 ∧ sn.MseOf dst 1 ∧ gb.Holds s (fun I => if I.headD 0 = 0 then .fin 3 else .fin 5) ∧
    dst.Holds s (fun I => .fin (x I)) ∧ x [1,2,3] ≠ 0 := by
  obtain ⟨s, h1, h2, h3⟩ := exists_store3 (A := ⟨0, [2], [3]⟩) (B := ⟨1, [2,5,4], [2,2,4]⟩) (C := ⟨2, [5,7,4], [2,3,4]⟩)
    (fun I => if I.headD 0 = 0 then XReal.fin 3 else .fin 5) (fun _ => XReal.fin 0) (fun I => XReal.fin (lin [5,7,4] I : ℝ))
    (by decide) (by decide) (by decide) (by decide) (by decide) (by decide)
  exact ⟨_, _, _, s, _, by decide, h1.1, h2.1, h3.1, by decide, by decide, by decide, rfl, by decide, ⟨by decide, by decide, by decide⟩, h1.2, h3.2,
    by simp [lin]⟩

end NNTile
