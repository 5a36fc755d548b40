import Verif.Lib.Sumnorm
/-! `normalize`. -/
namespace NNTile
open Finset
variable {α : Type}

theorem normalizeDev_fin {mean rms reps : ℝ} (hr : 0 < rms) (he : 0 < reps) :
    normalizeDev (.fin mean) (.fin rms) (.fin reps) = XReal.fin (Real.sqrt (max (rms ^ 2 - mean ^ 2) 0 + reps ^ 2)) := by
  simp only [normalizeDev, XReal.fabs_fin, XReal.fin_div _ hr.ne', XReal.one_def]
  by_cases h1 : 1 ≤ |mean| / rms
  · have h : (FP.ltb (XReal.fin 1) (XReal.fin (|mean| / rms)) || FP.eqb (XReal.fin (|mean| / rms)) (XReal.fin 1)) = true := by
      rw [Bool.or_eq_true, XReal.ltb_fin, XReal.eqb_fin]
      rcases lt_or_eq_of_le h1 with h | h
      · exact Or.inl h
      · exact Or.inr h.symm
    have h2 : rms ^ 2 ≤ mean ^ 2 := by
      rw [le_div_iff₀ hr, one_mul] at h1
      rw [← sq_abs mean]
      exact pow_le_pow_left₀ hr.le h1 2
    rw [if_pos h, max_eq_right (by linarith), zero_add, Real.sqrt_sq he.le]
  · have h : ¬ (FP.ltb (XReal.fin 1) (XReal.fin (|mean| / rms)) || FP.eqb (XReal.fin (|mean| / rms)) (XReal.fin 1)) = true := by
      rw [Bool.or_eq_true, XReal.ltb_fin, XReal.eqb_fin]
      rintro (h | h)
      · exact h1 h.le
      · exact h1 h.ge
    have h2 : 0 ≤ rms ^ 2 - mean ^ 2 := by
      rw [not_le, div_lt_iff₀ hr, one_mul] at h1
      have := pow_le_pow_left₀ (abs_nonneg mean) h1.le 2
      rw [sq_abs] at this
      linarith
    rw [if_neg h, max_eq_left h2]
    have h3 : 0 ≤ 1 - |mean| / rms * (|mean| / rms) := by
      have : 1 - |mean| / rms * (|mean| / rms) = (rms ^ 2 - mean ^ 2) / rms ^ 2 := by
        rw [← sq_abs mean]; field_simp
      rw [this]; positivity
    by_cases hlt : reps < rms
    · rw [if_pos ((XReal.ltb_fin _ _).2 hlt)]
      simp only [XReal.fin_mul, XReal.fin_sub, XReal.fin_add]
      rw [XReal.sqrt_fin (by positivity), XReal.fin_mul]
      congr 1
      conv_lhs => rw [← Real.sqrt_sq hr.le]
      rw [← Real.sqrt_mul (by positivity)]
      congr 1
      rw [← sq_abs mean]
      field_simp
      rw [Real.sqrt_sq hr.le]
    · rw [if_neg (by rw [XReal.ltb_fin]; exact hlt)]
      simp only [XReal.fin_mul, XReal.fin_sub, XReal.fin_div _ he.ne', XReal.fin_add]
      rw [XReal.sqrt_fin (by positivity), XReal.fin_mul]
      congr 1
      conv_lhs => rw [← Real.sqrt_sq he.le]
      rw [← Real.sqrt_mul (by positivity)]
      congr 1
      rw [← sq_abs mean]
      field_simp
      rw [Real.sqrt_sq he.le]

theorem normalizeVal_fin {l : Int} (hl : 0 < l) {eps N : ℝ} (he : 0 < eps) (hN : 0 < N) (gamma beta S v : ℝ) :
    normalizeVal l (.fin eps) (.fin gamma) (.fin beta) (.fin S) (.fin N) (.fin v) =
      XReal.fin ((v - S / l) / Real.sqrt (max (N ^ 2 / l - (S / l) ^ 2) 0 + eps) * gamma + beta) := by
  have hl' : (0 : ℝ) < (l : ℝ) := by exact_mod_cast hl
  have hof : (FP.ofIndex l : XReal) = .fin (l : ℝ) := rfl
  simp only [normalizeVal, hof, XReal.one_def, XReal.fin_div _ hl'.ne', XReal.sqrt_fin he.le, XReal.fin_mul]
  rw [XReal.sqrt_fin (by positivity), XReal.fin_mul, normalizeDev_fin (by positivity) (by positivity), XReal.fin_sub, XReal.fin_div, XReal.fin_mul, XReal.fin_add]
  · congr 5
    · ring
    · rw [mul_pow, Real.sq_sqrt (by positivity), Real.sq_sqrt he.le]
      congr 2
      congr 1
      · ring
      · ring
  · have : 0 < eps := he
    refine (Real.sqrt_pos.2 ?_).ne'
    have := le_max_right ((N * Real.sqrt (1 / (l : ℝ))) ^ 2 - (S * (1 / (l : ℝ))) ^ 2) 0
    positivity

theorem normalize_run [FP α] {m n k : Nat} {l : Int} {eps : α} {gb sn o : Buf α} {w x : Nat → α} {g : Nat → α} (ho : o.size = m * (k * n))
    (hx : ∀ j, j < m * (k * n) → o.data j = some (x j)) (hm : sn.size = 2 * (m * n)) (hw : ∀ j, j < 2 * (m * n) → sn.data j = some (w j))
    (hg : gb.size = 2) (hgv : ∀ j, j < 2 → gb.data j = some (g j)) :
    ∃ b', normalizeKernel m n k l eps gb sn o = .ok b' ∧ b'.size = o.size ∧ ∀ i0 i1 i2, i0 < m → i1 < k → i2 < n →
      b'.data (i0 + m * (i1 + k * i2)) =
        some (normalizeVal l eps (g 0) (g 1) (w (0 + 2 * (i0 + m * i2))) (w (1 + 2 * (i0 + m * i2))) (x (i0 + m * (i1 + k * i2)))) := by
  refine forN3_puts ho (fun i0 i1 i2 => normalizeVal l eps (g 0) (g 1) (w (0 + 2 * (i0 + m * i2))) (w (1 + 2 * (i0 + m * i2))) (x (i0 + m * (i1 + k * i2)))) ?_
  intro i2 i1 i0 h2 h1 h0 d hd he
  have hc := cell3_lt h0 h1 h2
  have hc2 := cell2_lt h0 h2
  have e1 : (i2 * k + i1) * m + i0 = i0 + m * (i1 + k * i2) := by ring
  rw [Buf.rd_at e1 hd (he.trans (hx _ hc)), M.bind_ok, Buf.rd_at (j := 0 + 2 * (i0 + m * i2)) (by ring) (by omega) (hw _ (by omega)), M.bind_ok,
    Buf.rd_at (j := 1 + 2 * (i0 + m * i2)) (by ring) (by omega) (hw _ (by omega)), M.bind_ok, Buf.rd_ok (by omega) (hgv 0 (by omega)), M.bind_ok,
    Buf.rd_ok (by omega) (hgv 1 (by omega)), M.bind_ok, e1, Buf.wr_put hd]

theorem normalizeVal_zero (l : Int) {eps : ℝ} (he : 0 < eps) (hl : 0 < l) (gamma beta v : ℝ) :
    normalizeVal l (.fin eps) (.fin gamma) (.fin beta) (.fin 0) (.fin 0) (.fin v) = XReal.nan := by
  have hl' : (0 : ℝ) < (l : ℝ) := by exact_mod_cast hl
  have hof : (FP.ofIndex l : XReal) = .fin (l : ℝ) := rfl
  have hi : XReal.infOf 0 = .nan := by simp [XReal.infOf]
  have hdev : ∀ r : ℝ, 0 ≤ r → normalizeDev (XReal.fin 0) (.fin 0) (.fin r) = .nan := by
    intro r hr
    have hd : (XReal.fin 0 / XReal.fin 0 : XReal) = .nan := by
      show XReal.div _ _ = _
      simp [XReal.div, hi]
    simp only [normalizeDev, XReal.fabs_fin, abs_zero, hd]
    rw [if_neg (by decide +revert), if_neg (by rw [XReal.ltb_fin]; exact not_lt.2 hr)]
    have h1 : ∀ y : XReal, FP.sqrt ((1 - XReal.nan * XReal.nan) * y + 1) = .nan := by
      intro y
      show XReal.sqrt (XReal.add (XReal.mul (XReal.add (XReal.fin 1) (XReal.neg (XReal.mul .nan .nan))) y) (XReal.fin 1)) = .nan
      cases y <;> rfl
    rw [h1]; rfl
  simp only [normalizeVal, hof, XReal.one_def, XReal.fin_div _ hl'.ne', XReal.sqrt_fin he.le, XReal.fin_mul]
  rw [XReal.sqrt_fin (by positivity), XReal.fin_mul, zero_mul, zero_mul, hdev _ (Real.sqrt_nonneg _)]
  rfl

theorem forTasks_congr {τ : Type _} {n : Nat} {f g : Nat → M (List τ)} (h : ∀ i, i < n → f i = g i) : forTasks n f = forTasks n g := by
  induction n with
  | zero => rfl
  | succ n ih => simp only [forTasks, ih (fun i hi => h i (by omega)), h n (by omega)]

/-- The only tile of a tensor of two elements. -/
theorem gamma_beta_tile {gb : Tensor} {s : Store α} (hgb : gb.Ready s) (hg : gb.shape = [2]) (hg1 : gb.ntiles = 1) {g : List Nat → α} (hgv : gb.Holds s g) :
    (s (gb.id, 0)).size = 2 ∧ ∀ j, j < 2 → (s (gb.id, 0)).data j = some (g [j]) := by
  obtain ⟨id, sh, bt⟩ := gb
  simp only at hg
  subst hg
  have hl : bt.length = 1 := hgb.1.2.2
  match bt, hl with
  | [b], _ =>
    have hb : 0 < b := hgb.1.2.1 b (by simp)
    have hb2 : 2 ≤ b := by
      by_contra hlt
      obtain rfl : b = 1 := by omega
      simp [Tensor.ntiles, Tensor.grid, gridOf] at hg1
    have hdiv : 1 / b = 0 := Nat.div_eq_of_lt (by omega)
    have hgr : (⟨id, [2], [b]⟩ : Tensor).grid = [1] := by simp [Tensor.grid, gridOf, hdiv]
    have hin : InBox (⟨id, [2], [b]⟩ : Tensor).grid [0] := by rw [hgr]; simp [InBox]
    have hts : (⟨id, [2], [b]⟩ : Tensor).tshape [0] = [2] := by simp [Tensor.tshape, tileShape]; omega
    have hli : lin (⟨id, [2], [b]⟩ : Tensor).grid [0] = 0 := by rw [hgr]; simp [lin]
    have hsz := hgb.2.size hin
    rw [hts, hli] at hsz
    refine ⟨by simpa using hsz, fun j hj => ?_⟩
    have hj' : InBox ((⟨id, [2], [b]⟩ : Tensor).tshape [0]) [j] := by rw [hts]; simpa [InBox] using hj
    have := hgv _ (hgb.1.glob hin hj').1
    rw [hgb.1.get_glob hin hj', hli, hts] at this
    simpa [lin, globIdx] using this

end NNTile
