import Verif.Model.Sumnorm
import Verif.Lib.MseTensor
import Verif.Lib.Softmax
import Verif.Lib.Elementwise
/-! `sumnorm` and `normalize`. -/
namespace NNTile
open Finset

namespace XReal
@[simp] theorem fabs_fin (a : ℝ) : FP.fabs (fin a) = fin |a| := rfl
theorem sqrt_fin {a : ℝ} (h : 0 ≤ a) : FP.sqrt (fin a) = fin (Real.sqrt a) := by
  show XReal.sqrt _ = _
  simp [XReal.sqrt, h]
theorem eqb_fin_ne {a b : ℝ} (h : a ≠ b) : FP.eqb (fin a) (fin b) = false := by
  rw [Bool.eq_false_iff, Ne, eqb_fin]; exact h
theorem ltb_fin_not {a b : ℝ} (h : ¬ a < b) : FP.ltb (fin a) (fin b) = false := by
  rw [Bool.eq_false_iff, Ne, ltb_fin]; exact h
end XReal

/-- A stored pair: a sum and the square root of a sum of squares (proof device). -/
noncomputable def snPair (S Q : ℝ) (e : Nat) : XReal := if e = 0 then .fin S else .fin (Real.sqrt Q)

/-- The local variables stand for the sum `S` and the sum of squares `Q`. -/
def SnAcc.Rep (p : SnAcc XReal) (S Q : ℝ) : Prop :=
  ∃ c q : ℝ, p = ⟨.fin S, .fin c, .fin q⟩ ∧ 0 ≤ c ∧ 0 ≤ q ∧ c ^ 2 * q = Q

theorem snStep_rep {p : SnAcc XReal} {S Q : ℝ} (h : p.Rep S Q) (v : ℝ) : (snStep (.fin v) p).Rep (S + v) (Q + v ^ 2) := by
  obtain ⟨c, q, rfl, hc, hq, rfl⟩ := h
  by_cases h0 : v = 0
  · subst h0
    have : FP.eqb (XReal.fin 0) (XReal.fin 0) = true := (XReal.eqb_fin 0 0).2 rfl
    simp only [snStep, XReal.zero_def, this, if_true]
    exact ⟨c, q, by simp, hc, hq, by ring⟩
  · have hv : 0 < |v| := abs_pos.2 h0
    simp only [snStep, XReal.zero_def, XReal.eqb_fin_ne h0, Bool.false_eq_true, if_false, XReal.fabs_fin]
    by_cases hlt : c < |v|
    · simp only [(XReal.ltb_fin c |v|).2 hlt, if_true, XReal.fin_div _ hv.ne', XReal.fin_add, XReal.fin_mul, XReal.one_def]
      refine ⟨|v|, _, rfl, hv.le, by positivity, ?_⟩
      field_simp
      rw [sq_abs]
    · have hcp : 0 < c := hv.trans_le (not_lt.1 hlt)
      simp only [XReal.ltb_fin_not hlt, Bool.false_eq_true, if_false, XReal.fin_div _ hcp.ne', XReal.fin_add, XReal.fin_mul]
      refine ⟨c, _, rfl, hc, by positivity, ?_⟩
      field_simp
      rw [sq_abs]

theorem snFold_rep {k : Nat} {rd : Nat → M XReal} {r : Nat → ℝ} (h : ∀ i, i < k → rd i = .ok (.fin (r i))) {p : SnAcc XReal} {S Q : ℝ} (hp : p.Rep S Q) :
    ∃ p', forN k (fun i p => rd i >>= fun v => (.ok (snStep v p) : M (SnAcc XReal))) p = .ok p' ∧
      p'.Rep (S + ∑ i ∈ range k, r i) (Q + ∑ i ∈ range k, r i ^ 2) := by
  induction k with
  | zero => exact ⟨p, rfl, by simpa using hp⟩
  | succ k ih =>
    obtain ⟨p', e, hp'⟩ := ih (fun i hi => h i (by omega))
    refine ⟨snStep (.fin (r k)) p', ?_, ?_⟩
    · rw [forN_succ, e, M.bind_ok, h k (by omega), M.bind_ok]
    · rw [sum_range_succ, sum_range_succ, ← add_assoc, ← add_assoc]
      exact snStep_rep hp' _

theorem sumnorm_run {m n k : Nat} {src o : Buf XReal} {x : Nat → ℝ} {S Q : Nat → ℝ} (ho : o.size = 2 * (m * n))
    (hs : src.size = m * (k * n)) (hx : ∀ j, j < m * (k * n) → src.data j = some (.fin (x j)))
    (hq : ∀ c, c < m * n → 0 ≤ Q c ∧ ∀ e, e < 2 → o.data (e + 2 * c) = some (snPair (S c) (Q c) e)) :
    ∃ b', sumnormKernel m n k src o = .ok b' ∧ b'.size = o.size ∧ ∀ e i1 i2, e < 2 → i1 < m → i2 < n →
      b'.data (e + 2 * (i1 + m * i2)) = some (snPair (S (i1 + m * i2) + ∑ i0 ∈ range k, x (i1 + m * (i0 + k * i2)))
        (Q (i1 + m * i2) + ∑ i0 ∈ range k, x (i1 + m * (i0 + k * i2)) ^ 2) e) := by
  refine forN_pairs ho (fun e i1 i2 => snPair (S (i1 + m * i2) + ∑ i0 ∈ range k, x (i1 + m * (i0 + k * i2)))
        (Q (i1 + m * i2) + ∑ i0 ∈ range k, x (i1 + m * (i0 + k * i2)) ^ 2) e) ?_
  intro i2 i1 h2 h1 d hd e0 e1
  have hc := cell2_lt h1 h2
  obtain ⟨hv, hq⟩ := hq _ hc
  have g0 := hq 0 (by omega)
  have g1 := hq 1 (by omega)
  rw [zero_add] at g0
  rw [add_comm 1] at g1
  rw [← e0] at g0
  rw [← e1] at g1
  have hlt : 2 * (i1 + m * i2) + 1 < d.size := by omega
  obtain ⟨p, ep, c, q, rfl, hc0, hq0, hcq⟩ := snFold_rep (k := k) (r := fun i0 => x (i1 + m * (i0 + k * i2))) (rd := fun i => src.rd (i2*(m*k) + i1 + i*m))
    (p := ⟨.fin (S (i1 + m * i2)), .fin (Real.sqrt (Q (i1 + m * i2))), 1⟩) (S := S (i1 + m * i2)) (Q := Q (i1 + m * i2)) (by
    intro i hi
    rw [pos3]
    have := cell3_lt h1 hi h2
    exact Buf.rd_ok (hs ▸ this) (hx _ this)) ⟨_, 1, rfl, Real.sqrt_nonneg _, by norm_num, by rw [mul_one, Real.sq_sqrt hv]⟩
  rw [show i2 * m + i1 = i1 + m * i2 by ring, Buf.rd_ok (by omega) g0, M.bind_ok, Buf.rd_ok hlt g1, M.bind_ok]
  have e0' : snPair (S (i1 + m * i2)) (Q (i1 + m * i2)) 0 = .fin (S (i1 + m * i2)) := rfl
  have e1' : snPair (S (i1 + m * i2)) (Q (i1 + m * i2)) 1 = .fin (Real.sqrt (Q (i1 + m * i2))) := rfl
  rw [e0', e1', ep, M.bind_ok, Buf.wr_put (by omega), M.bind_ok, Buf.wr_put (by simpa [Buf.put] using hlt)]
  refine ⟨_, rfl, rfl, ?_, ?_, ?_⟩
  · simp [Buf.put, snPair]
  · simp only [Buf.put, if_true, snPair, one_ne_zero, if_false]
    rw [XReal.sqrt_fin hq0, XReal.fin_mul, ← hcq, Real.sqrt_mul (by positivity), Real.sqrt_sq hc0]
  · intro j h h'; simp [Buf.put, h, h']

/-- The tasks that `sumnorm` submits for the tile `t` of `dst`. -/
noncomputable def snTasks (src dst : Tensor) (a : Nat) (t : List Nat) : List (Task1 XReal) :=
  submitClear (dst.id, lin dst.grid t) :: (List.range (src.grid.getD a 0)).flatMap (fun j => [submitSumnorm
    (mOf (src.tshape (t.tail.insertIdx a j)) a) (nOf (src.tshape (t.tail.insertIdx a j)) a) (kOf (src.tshape (t.tail.insertIdx a j)) a)
    (src.id, lin src.grid (t.tail.insertIdx a j)) (dst.id, lin dst.grid t)])

theorem sumnormAsync_ok {src dst : Tensor} {a : Nat} (hs : src.WF) (hd : dst.WF) (h : dst.MseOf src a) :
    sumnormAsync src dst a = .ok ((List.range dst.ntiles).flatMap (fun i => snTasks src dst a (dst.tindex i))) := by
  have hn := h.ndim_eq hs
  have hax := h.axis
  have hc := checkMse_check hs hd (a := a) hax hn (by rw [h.shape]; rfl) (by rw [h.basetile]; rfl)
  have hsl := h.slice
  have hax' := hsl.axis_grid hs
  simp only [sumnormAsync]
  rw [throwIf_neg (by simpa using hn), M.bind_ok, throwIf_neg (by simp only [Tensor.ndim]; omega), M.bind_ok, throwIf_neg (by omega), M.bind_ok,
    throwIf_neg (by simp only [Tensor.ndim]; omega), M.bind_ok, vget_ok (by rw [h.shape]; simp), M.bind_ok,
    throwIf_neg (by rw [h.shape]; simp), M.bind_ok, vget_ok (by rw [h.basetile]; simp), M.bind_ok, throwIf_neg (by rw [h.basetile]; simp), M.bind_ok]
  simp only [Int.toNat_natCast, hc.ok h, M.bind_ok]
  apply forTasks_ok
  intro i hi
  obtain ⟨t, ht, hin⟩ := h.tile (dst.tindex_inBox i)
  rw [Tensor.handleL_ok hi, M.bind_ok, vget_ok hax', M.bind_ok]
  rw [forTasks_ok (g := fun j => [submitSumnorm
    (mOf (src.tshape ((dst.tindex i).tail.insertIdx a j)) a) (nOf (src.tshape ((dst.tindex i).tail.insertIdx a j)) a)
    (kOf (src.tshape ((dst.tindex i).tail.insertIdx a j)) a)
    (src.id, lin src.grid ((dst.tindex i).tail.insertIdx a j)) (dst.id, i)])]
  · rw [M.bind_ok, snTasks, Tensor.lin_tindex hi]
  · intro j hj
    have hin' : InBox src.grid (mseTileIndex (dst.tindex i) a j) := by
      rw [mseTileIndex, ht]; exact hsl.insert_inBox hs hin hj
    rw [Tensor.handleAt_ok hin', M.bind_ok, Tensor.tshapeAt_ok hin', M.bind_ok]
    rfl

theorem sumnorm_computes {src dst : Tensor} {a : Nat} {s : Store XReal} (hs : src.Ready s) (hd : dst.Ready s) (hid : src.id ≠ dst.id)
    (h : dst.MseOf src a) (x : List Nat → ℝ) (hx : src.Holds s (fun I => .fin (x I))) :
    Computes (sumnormAsync src dst a) s dst
      (fun I => snPair (∑ L ∈ range (src.shape.getD a 0), x (I.tail.insertIdx a L)) (∑ L ∈ range (src.shape.getD a 0), x (I.tail.insertIdx a L) ^ 2)
        (I.headD 0)) := by
  have hax := h.axis
  have hg : src.grid.getD a 0 = (src.shape.getD a 0 - 1) / src.basetile.getD a 0 + 1 := getD_gridOf hs.1.2.2 hax
  have hsl := h.slice
  have hwf := h.sl_wf hd.1
  let V : (ℝ → ℝ) → Nat → List Nat → ℝ := fun f j I => ∑ j' ∈ range j,
    ∑ i ∈ range (min (src.basetile.getD a 0) (src.shape.getD a 0 - j' * src.basetile.getD a 0)), f (x (I.insertIdx a (j' * src.basetile.getD a 0 + i)))
  have hV : ∀ f I, V f (src.grid.getD a 0) I = ∑ L ∈ range (src.shape.getD a 0), f (x (I.insertIdx a L)) := by
    intro f I
    simp only [V]
    rw [hg, sum_tiles_fn (hs.1.1.getD hax) (hs.1.2.1.getD (by rw [hs.1.2.2]; exact hax)) (fun i => f (x (I.insertIdx a i)))]
  have hVn : ∀ j I, 0 ≤ V (fun y => y ^ 2) j I := fun j I => sum_nonneg (fun _ _ => sum_nonneg (fun _ _ => sq_nonneg _))
  refine computes_tiles hd (snTasks src dst a) (sumnormAsync_ok hs.1 hd.1 h) _ ?_ ?_
  · intro t ht u hu
    simp only [snTasks, List.mem_cons, List.mem_flatMap, List.mem_range, List.not_mem_nil, or_false] at hu
    rcases hu with rfl | ⟨j, hj, rfl⟩
    · simp [submitClear, task0]
    · simp [submitSumnorm, task1, hid]
  · intro u hu
    obtain ⟨t, rfl, ht⟩ := h.tile hu
    have hsz := hd.2.size hu
    have hts := h.tshape t
    have hp : (dst.tshape (0 :: t)).prod = 2 * (dst.sl.tshape t).prod := by rw [hts]; simp
    simp only [snTasks, List.tail_cons]
    have hcl : ∃ c0, (submitClear (α := XReal) (dst.id, lin dst.grid (0 :: t))).fn ((submitClear (α := XReal) (dst.id, lin dst.grid (0 :: t))).reads.map s)
        ((submitClear (α := XReal) (dst.id, lin dst.grid (0 :: t))).inp (s (dst.id, lin dst.grid (0 :: t)))) = .ok c0 ∧ c0.size = (dst.tshape (0 :: t)).prod ∧
        ∀ j, j < c0.size → c0.data j = some (.fin 0) := by
      refine ⟨_, rfl, hsz, ?_⟩
      intro j hj
      simp only [submitClear, task0, Task1.inp, Buf.undef] at hj ⊢
      exact if_pos hj
    obtain ⟨c0, hc0, hz0, hd0⟩ := hcl
    obtain ⟨b', e, e1, e2⟩ := foldBuf_range_inv (s := s) (N := src.grid.getD a 0) (task := fun j => submitSumnorm
        (mOf (src.tshape (t.insertIdx a j)) a) (nOf (src.tshape (t.insertIdx a j)) a) (kOf (src.tshape (t.insertIdx a j)) a)
        (src.id, lin src.grid (t.insertIdx a j)) (dst.id, lin dst.grid (0 :: t)))
      (b := c0)
      (fun j c => c.size = (dst.tshape (0 :: t)).prod ∧
        ∀ l e, InBox (dst.sl.tshape t) l → e < 2 → c.data (e + 2 * lin (dst.sl.tshape t) l) =
          some (snPair (V id j (globIdx dst.sl.basetile t l)) (V (fun y => y ^ 2) j (globIdx dst.sl.basetile t l)) e))
      ⟨hz0, by
        intro l e hl he
        have := lin_lt hl
        rw [hd0 _ (by rw [hz0, hp]; omega)]
        simp [V, snPair]⟩ (by
        rintro j hj c ⟨c1, c2⟩
        obtain ⟨X, hts', hz1, hz2, hk, hX, hv⟩ := slice_tile hsl hs ht hj hx
        have hu' := hsl.insert_inBox hs.1 ht hj
        have hax2 : a < (src.tshape (t.insertIdx a j)).length := by rw [hs.1.tshape_length hu']; exact h.axis
        have hXf : ∀ k, ∃ y : ℝ, k < mOf (src.tshape (t.insertIdx a j)) a * (kOf (src.tshape (t.insertIdx a j)) a * nOf (src.tshape (t.insertIdx a j)) a) →
            X k = .fin y := by
          intro k
          by_cases hk' : k < mOf (src.tshape (t.insertIdx a j)) a * (kOf (src.tshape (t.insertIdx a j)) a * nOf (src.tshape (t.insertIdx a j)) a)
          · have h1 := hX k hk'
            rw [← size3 hax2] at hk'
            have h2 := hx.data hs.1 hu' hk'
            rw [h1] at h2
            exact ⟨_, fun _ => Option.some.inj h2⟩
          · exact ⟨0, fun h => absurd h hk'⟩
        choose Y hY using hXf
        obtain ⟨b', f1, f2, f3⟩ := sumnorm_run (o := c) (x := Y) (S := fun k => V id j (globIdx dst.sl.basetile t (unlin (dst.sl.tshape t) k)))
          (Q := fun k => V (fun y => y ^ 2) j (globIdx dst.sl.basetile t (unlin (dst.sl.tshape t) k)))
          (by rw [c1, hp, hz1]) hz2 (fun k hk => by rw [hX k hk, hY k hk]) (by
            intro k hk'
            refine ⟨hVn _ _, fun e he => ?_⟩
            rw [← hz1] at hk'
            have := c2 (unlin (dst.sl.tshape t) k) e (unlin_inBox (hwf.tshape_pos ht) k) he
            rwa [lin_unlin hk'] at this)
        refine ⟨b', ?_, by rw [f2, c1], ?_⟩
        · simpa [submitSumnorm, task1, Task1.inp] using f1
        · intro l e hl he
          obtain ⟨i1, i2, g1, g2, q1, q2⟩ := hv l hl
          have hYx : ∀ i, i < kOf (src.tshape (t.insertIdx a j)) a → Y (i1 + mOf (src.tshape (t.insertIdx a j)) a * (i + kOf (src.tshape (t.insertIdx a j)) a * i2)) =
              x ((globIdx dst.sl.basetile t l).insertIdx a (j * src.basetile.getD a 0 + i)) := by
            intro i hi
            have := q2 i hi
            rw [hY _ (cell3_lt g1 hi g2)] at this
            exact XReal.fin_inj.1 this
          rw [q1, f3 e i1 i2 he g1 g2, ← q1, unlin_lin hl]
          simp only [V]
          rw [sum_range_succ, sum_range_succ]
          congr 3
          · rw [hk]
            exact sum_congr rfl (fun i hi => by rw [← hk] at hi ⊢; rw [hYx i (mem_range.1 hi)]; rfl)
          · rw [hk]
            exact sum_congr rfl (fun i hi => by rw [← hk] at hi ⊢; rw [hYx i (mem_range.1 hi)]))
    refine ⟨b', ?_, by rw [e1, hsz], ?_⟩
    · simp only [foldBuf, hc0, M.bind_ok]
      exact e
    intro l hl
    rw [hts] at hl
    cases l with
    | nil => exact absurd hl (by simp [InBox])
    | cons c l =>
      obtain ⟨he, hl⟩ := hl
      rw [hts, h.glob]
      show b'.data (c + 2 * lin _ l) = _
      rw [e2 l c hl he, hV id, hV (fun y => y ^ 2)]
      rfl

end NNTile
