import Verif.Lib.ReduxSum
/-!
# Executions with replicas: norms
-/
namespace NNTile
open Finset

/-- A buffer of `N` numbers with squares `g.1`, not negative if anything has been accumulated (`g.2` counts tasks). -/
def NormRep (N : Nat) (b : Buf ℝ) (g : (Nat → ℝ) × Nat) : Prop :=
  b.size = N ∧ ∀ j, j < N → ∃ y, b.data j = some y ∧ y ^ 2 = g.1 j ∧ (0 < g.2 → 0 ≤ y)

theorem reduxHypot_sound (N : Nat) : (reduxHypot : ReduxCl ℝ).Sound (NormRep N) N where
  size h := h.1
  init := ⟨_, rfl, rfl, fun j hj => ⟨0, by simp [Buf.undef, hj], by simp, fun _ => le_rfl⟩⟩
  merge := by
    rintro b g c k ⟨h1, h2⟩ ⟨h3, h4⟩
    choose! y hy using h2
    choose! z hz using h4
    have := forN_put (n := b.size) (b := b) (f := fun i dst => do
      let x ← c.rd i
      let y ← dst.rd i
      dst.wr i (FP.hypot (1 * x) (1 * y))) (fun i => FP.hypot (1 * z i) (1 * y i)) (by
        intro i hi d hd he
        rw [Buf.rd_ok (by omega) (hz i (by omega)).1, M.bind_ok, Buf.rd_ok (by omega) (he.trans (hy i (by omega)).1), M.bind_ok, Buf.wr_put (by omega)])
    have hz1 : FP.eqb (1 : ℝ) 0 = false := by simp
    refine ⟨⟨b.size, fun k => if k < b.size then some (FP.hypot (1 * z k) (1 * y k)) else b.data k⟩, ?_, h1,
      fun j hj => ⟨FP.hypot (1 * z j) (1 * y j), ?_, ?_, ?_⟩⟩
    · show hypotKernel b.size 1 c 1 b = _
      unfold hypotKernel
      simp only [hz1, Bool.false_eq_true, if_false]
      exact this
    · simp only [h1, hj, if_true]
    · obtain ⟨-, a1, a2⟩ := hy j hj
      obtain ⟨-, b1, b2⟩ := hz j hj
      simp only [hypot_real, one_mul, Prod.fst_add, Pi.add_apply]
      rw [Real.sq_sqrt (by positivity), a1, b1, add_comm]
    · intro _
      simp only [hypot_real]
      exact Real.sqrt_nonneg _

theorem NormRep.det {N : Nat} {g : (Nat → ℝ) × Nat} (hg : 0 < g.2) {c c' : Buf ℝ} (h : NormRep N c g) (h' : NormRep N c' g) {j : Nat} (hj : j < N) :
    c.data j = c'.data j := by
  obtain ⟨y, a1, a2, a3⟩ := h.2 j hj
  obtain ⟨y', b1, b2, b3⟩ := h'.2 j hj
  rw [a1, b1, ← Real.sqrt_sq (a3 hg), ← Real.sqrt_sq (b3 hg), a2, b2]

/-- Task `t` replaces the contents `Y` by `sqrt((be * Y)^2 + W)`; the contents are not needed if `be = 0`. -/
def NormAffine (N : Nat) (s : Store ℝ) (t : Task1 ℝ) (be : ℝ) (W : Nat → ℝ) : Prop :=
  ∀ (c : Buf ℝ) (Y : Nat → ℝ), c.size = N → (be ≠ 0 → ∀ k, k < N → c.data k = some (Y k)) →
    ∃ b', t.fn (t.reads.map s) c = .ok b' ∧ NormRep N b' (fun k => (be * Y k) ^ 2 + W k, 1)

theorem NormAffine.addsTo {N : Nat} {s : Store ℝ} {t : Task1 ℝ} {W : Nat → ℝ} (h : NormAffine N s t 1 W) : AddsTo (NormRep N) s t (W, 1) := by
  rintro b g ⟨h1, h2⟩
  choose! y hy using h2
  obtain ⟨b', e, e1, e2⟩ := h b y h1 (fun _ k hk => (hy k hk).1)
  refine ⟨b', e, e1, fun j hj => ?_⟩
  obtain ⟨z, f1, f2, f3⟩ := e2 j hj
  refine ⟨z, f1, ?_, fun _ => f3 Nat.one_pos⟩
  rw [f2]
  simp [(hy j hj).2.1]

theorem reduces_norms {N : Nat} {s : Store ℝ} {t0 : Task1 ℝ} {ts : List (Task1 ℝ)} {beta : ℝ} {r r' : Bool}
    (hm0 : t0.mode = reduceMode beta r) (h0 : ∃ W, NormAffine N s t0 beta W) (hm : ∀ t ∈ ts, t.mode = reduceMode (1 : ℝ) r')
    (h : ∀ t ∈ ts, ∃ W, NormAffine N s t 1 W) {b : Buf ℝ} (hb : b.size = N)
    (hy : beta ≠ 0 → ∀ k, k < N → ∃ y, b.data k = some y) : Reduces reduxHypot s N b (t0 :: ts) := by
  obtain ⟨W0, h0⟩ := h0
  choose! w hw using h
  obtain ⟨y, hy⟩ : ∃ y : Nat → ℝ, beta ≠ 0 → ∀ k, k < N → b.data k = some (y k) := by
    by_cases hb0 : beta = 0
    · exact ⟨fun _ => 0, fun h => absurd hb0 h⟩
    · have := hy hb0
      choose! y hy using this
      exact ⟨y, fun _ => hy⟩
  refine ⟨(Nat → ℝ) × Nat, inferInstance, NormRep N, (fun k => (beta * y k) ^ 2 + W0 k, 1), t0, ts, ts.map (fun t => (w t, 1)), rfl, reduxHypot_sound N,
    fun t ht => by rw [hm t ht]; exact reduceMode_ne_W one_ne_zero _, ?_, ?_, fun c c' h h' j hj => h.det (by simp) h' hj⟩
  · rw [List.forall₂_map_right_iff, List.forall₂_same]
    intro t ht
    exact (hw t ht).addsTo
  · by_cases hr : t0.mode = .REDUX
    · right
      rw [hm0] at hr
      obtain rfl := reduceMode_REDUX hr
      refine ⟨by rw [hm0]; exact reduceMode_ne_W one_ne_zero _, (fun k => y k ^ 2, 0), (W0, 1),
        ⟨hb, fun j hj => ⟨y j, hy one_ne_zero j hj, rfl, fun h => absurd h (lt_irrefl _)⟩⟩, h0.addsTo, ?_⟩
      ext k <;> simp
    · left
      refine ⟨hr, ?_⟩
      have hsz : (t0.inp b).size = N := by
        unfold Task1.inp; split <;> simpa [Buf.undef] using hb
      obtain ⟨b1, e, e1⟩ := h0 (t0.inp b) y hsz (by
        intro hb' k hk
        have : t0.mode ≠ .W := by rw [hm0]; exact reduceMode_ne_W hb' _
        rw [Task1.inp, if_neg this]
        exact hy hb' k hk)
      exact ⟨b1, e, e1⟩

theorem normSlice_affine {m n k : Nat} {alpha : ℝ} {src : Buf ℝ} (hs : src.Full (m * (k * n))) :
    ∃ W : Nat → ℝ, ∀ (be : ℝ) (c : Buf ℝ) (Y : Nat → ℝ), c.size = m * n → (be ≠ 0 → ∀ k, k < m * n → c.data k = some (Y k)) →
      ∃ b', normSliceKernel m n k alpha src be c = .ok b' ∧ NormRep (m * n) b' (fun k => (be * Y k) ^ 2 + W k, 1) := by
  obtain ⟨x, hx⟩ := hs.fn
  refine ⟨fun c => alpha ^ 2 * ∑ i0 ∈ range k, x (c % m + m * (i0 + k * (c / m))) ^ 2, fun be c Y hc hY => ?_⟩
  obtain ⟨b', e1, e2, e3⟩ := normSlice_run (alpha := alpha) (beta := be) hc hs.1 hx hY
  refine ⟨b', e1, by rw [e2, hc], fun j hj => ?_⟩
  obtain ⟨h1, h2, h3⟩ := cell2_split hj
  have := e3 _ _ h1 h2
  rw [h3] at this
  exact ⟨_, this, Real.sq_sqrt (add_nonneg (sq_nonneg _) (mul_nonneg (sq_nonneg _) (sum_nonneg fun _ _ => sq_nonneg _))), fun _ => Real.sqrt_nonneg _⟩

end NNTile
