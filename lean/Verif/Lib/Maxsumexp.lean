import Verif.Lib.Mse
import Verif.Model.Maxsumexp
import Verif.Lib.Reduce
/-! Lemmas about the kernel of `maxsumexp`. -/
namespace NNTile
open Finset
variable {α : Type}

/-- The local variables stand for the collection `q`. -/
def MseAcc.Rep (p : MseAcc XReal) (q : Mse) : Prop :=
  p.c = .fin 0 ∧ ((p.max = .ninf ∧ p.sum = .fin 1 ∧ q = .empty) ∨ ∃ m s, p.max = .fin m ∧ p.sum = .fin s ∧ q = .pair m s)

theorem mseStep_rep {p : MseAcc XReal} {q : Mse} (h : p.Rep q) {v : XReal} (hv : v.NumOrMask) : (mseStep v p).Rep (q + Mse.of v) := by
  obtain ⟨mx, sm, c⟩ := p
  obtain ⟨hc, h⟩ := h
  simp only at hc h
  subst hc
  rcases hv with rfl | ⟨a, rfl⟩
  · rw [show Mse.of .ninf = 0 from rfl, add_zero]
    simp only [mseStep, XReal.isInf_ninf, if_true]
    exact ⟨rfl, h⟩
  · rcases h with ⟨rfl, rfl, rfl⟩ | ⟨m, s, rfl, rfl, rfl⟩
    · rw [← Mse.zero_eq, zero_add]
      simp only [mseStep, XReal.isInf_fin, XReal.ltb_ninf, if_true, XReal.ninf_sub, XReal.exp_ninf, XReal.one_def, XReal.fin_mul, XReal.fin_sub,
        XReal.fin_add, Bool.false_eq_true, if_false]
      refine ⟨by simp, Or.inr ⟨a, 1, rfl, by simp, rfl⟩⟩
    · by_cases hlt : m < a
      · simp only [mseStep, XReal.isInf_fin, (XReal.ltb_fin m a).2 hlt, if_true, XReal.exp_fin, XReal.one_def, XReal.fin_mul, XReal.fin_sub,
          XReal.fin_add, Bool.false_eq_true, if_false]
        refine ⟨by simp, Or.inr ⟨a, s * Real.exp (m - a) + 1, rfl, by simp, ?_⟩⟩
        rw [Mse.of, Mse.add_eq, Mse.add_some, max_eq_right hlt.le]
        simp
      · have hl : FP.ltb (XReal.fin m) (XReal.fin a) = false := by
          rw [Bool.eq_false_iff, Ne, XReal.ltb_fin]; exact hlt
        simp only [mseStep, XReal.isInf_fin, hl, XReal.exp_fin, XReal.fin_mul, XReal.fin_sub,
          XReal.fin_add, Bool.false_eq_true, if_false]
        refine ⟨by simp, Or.inr ⟨m, s + Real.exp (a - m), rfl, by simp, ?_⟩⟩
        rw [Mse.of, Mse.add_eq, Mse.add_some, max_eq_left (not_lt.1 hlt)]
        simp

theorem mse_init {v : XReal} (hv : v.NumOrMask) : (⟨v, 1, 0⟩ : MseAcc XReal).Rep (Mse.of v) := by
  refine ⟨rfl, ?_⟩
  rcases hv with rfl | ⟨a, rfl⟩
  · exact Or.inl ⟨rfl, rfl, rfl⟩
  · exact Or.inr ⟨a, 1, rfl, rfl, rfl⟩

theorem mseFold_rep {k : Nat} {rd : Nat → M XReal} {r : Nat → XReal} (h : ∀ i, i < k → rd i = .ok (r (i + 1))) (hr : ∀ i, i ≤ k → (r i).NumOrMask) :
    ∃ p, forN k (fun i p => rd i >>= fun v => (.ok (mseStep v p) : M (MseAcc XReal))) ⟨r 0, 1, 0⟩ = .ok p ∧
      p.Rep (∑ i ∈ range (k + 1), Mse.of (r i)) := by
  induction k with
  | zero => exact ⟨_, rfl, by simpa using mse_init (hr 0 le_rfl)⟩
  | succ k ih =>
    obtain ⟨p, e, hp⟩ := ih (fun i hi => h i (by omega)) (fun i hi => hr i (by omega))
    refine ⟨mseStep (r (k + 1)) p, ?_, ?_⟩
    · rw [forN_succ, e, M.bind_ok, h k (by omega), M.bind_ok]
    · rw [sum_range_succ]
      exact mseStep_rep hp (hr (k + 1) le_rfl)

/-- Saving the result merges it into the stored pair. -/
theorem mseStore_rep {p : MseAcc XReal} {q Q : Mse} (hp : p.Rep Q) (hq : q.Valid) {off : Nat} {d : Buf XReal} (hoff : off + 1 < d.size)
    (h0 : d.data off = some (q.enc 0)) (h1 : d.data (off + 1) = some (q.enc 1)) :
    ∃ d', mseStore off p d = .ok d' ∧ d'.size = d.size ∧ d'.data off = some ((q + Q).enc 0) ∧ d'.data (off + 1) = some ((q + Q).enc 1) ∧
      ∀ j, j ≠ off → j ≠ off + 1 → d'.data j = d.data j := by
  obtain ⟨mx, sm, c⟩ := p
  obtain ⟨hc, h⟩ := hp
  simp only at hc h
  subst hc
  have hne : off ≠ off + 1 := by omega
  rcases h with ⟨rfl, rfl, rfl⟩ | ⟨m, s, rfl, rfl, rfl⟩
  · refine ⟨d, by simp [mseStore], rfl, ?_, ?_, fun _ _ _ => rfl⟩
    · rw [← Mse.zero_eq, add_zero]; exact h0
    · rw [← Mse.zero_eq, add_zero]; exact h1
  · simp only [mseStore, XReal.isInf_fin, Bool.false_eq_true, if_false]
    rw [Buf.rd_ok hoff h1, M.bind_ok]
    cases q with
    | empty =>
      have h00 : FP.eqb (XReal.fin 0) (XReal.fin 0) = true := (XReal.eqb_fin 0 0).2 rfl
      rw [show Mse.empty + Mse.pair m s = Mse.pair m s from rfl]
      simp only [Mse.enc, XReal.zero_def, h00, if_true]
      rw [Buf.wr_put (by omega), M.bind_ok, Buf.wr_put (by simpa [Buf.put] using hoff)]
      refine ⟨_, rfl, rfl, ?_, ?_, ?_⟩
      · simp [Buf.put]
      · simp [Buf.put]
      · intro j h h'; simp [Buf.put, h, h']
    | pair m' s' =>
      simp only [Mse.Valid] at hq
      have hne0 : FP.eqb (XReal.fin s') (XReal.fin 0) = false := by
        rw [Bool.eq_false_iff, Ne, XReal.eqb_fin]; exact hq.ne'
      simp only [Mse.enc, XReal.zero_def, hne0, Bool.false_eq_true, if_false]
      rw [Buf.rd_ok (by omega) h0, M.bind_ok]
      simp only [Mse.enc]
      rw [Mse.add_eq, Mse.add_some]
      by_cases hlt : m' < m
      · simp only [(XReal.ltb_fin m' m).2 hlt, if_true, XReal.fin_sub, XReal.exp_fin, XReal.fin_mul, XReal.fin_add]
        rw [Buf.wr_put (by omega), M.bind_ok, Buf.wr_put (by simpa [Buf.put] using hoff), M.bind_ok, Buf.wr_put (by simpa [Buf.put] using hoff)]
        refine ⟨_, rfl, rfl, ?_, ?_, ?_⟩
        · simp [Buf.put, max_eq_right hlt.le]
        · simp [Buf.put, max_eq_right hlt.le, add_comm]
        · intro j h h'; simp [Buf.put, h, h']
      · have hl : FP.ltb (XReal.fin m') (XReal.fin m) = false := by
          rw [Bool.eq_false_iff, Ne, XReal.ltb_fin]; exact hlt
        simp only [hl, Bool.false_eq_true, if_false, XReal.fin_sub, XReal.exp_fin, XReal.fin_mul, XReal.fin_add]
        rw [Buf.wr_put (by omega), M.bind_ok, Buf.wr_put (by simpa [Buf.put] using hoff)]
        have hle := not_lt.1 hlt
        refine ⟨_, rfl, rfl, ?_, ?_, ?_⟩
        · simpa [Buf.put, max_eq_left hle, Mse.enc] using h0
        · simp [Buf.put, max_eq_left hle, add_comm]
        · intro j h h'; simp [Buf.put, h']

/-- A loop over pairs of cells. -/
theorem forN_pairs {m n : Nat} {o : Buf α} {body : Nat → Nat → Buf α → M (Buf α)} (ho : o.size = 2 * (m * n)) (v : Nat → Nat → Nat → α)
    (hbody : ∀ i2 i1, i2 < n → i1 < m → ∀ d : Buf α, d.size = o.size → d.data (2 * (i1 + m * i2)) = o.data (2 * (i1 + m * i2)) →
      d.data (2 * (i1 + m * i2) + 1) = o.data (2 * (i1 + m * i2) + 1) →
      ∃ d', body i2 i1 d = .ok d' ∧ d'.size = d.size ∧ d'.data (2 * (i1 + m * i2)) = some (v 0 i1 i2) ∧
        d'.data (2 * (i1 + m * i2) + 1) = some (v 1 i1 i2) ∧
        ∀ j, j ≠ 2 * (i1 + m * i2) → j ≠ 2 * (i1 + m * i2) + 1 → d'.data j = d.data j) :
    ∃ b', forN n (fun i2 d => forN m (fun i1 d => body i2 i1 d) d) o = .ok b' ∧ b'.size = o.size ∧
      ∀ e i1 i2, e < 2 → i1 < m → i2 < n → b'.data (e + 2 * (i1 + m * i2)) = some (v e i1 i2) := by
  have key := Puts.forN (o := o) (n := n) (f := fun i2 d => forN m (fun i1 d => body i2 i1 d) d)
    (P := fun i2 c => ∃ i1, i1 < m ∧ c / 2 = i1 + m * i2) (v := fun c => v (c % 2) (c / 2 % m) (c / 2 / m))
    (by
      intro i2 h2
      apply Puts.forN (f := fun i1 d => body i2 i1 d) (P := fun i1 c => c / 2 = i1 + m * i2)
      · intro i1 h1 d hd hP
        obtain ⟨d', e, z, a, b, c⟩ := hbody i2 i1 h2 h1 d hd (hP _ (by omega)) (hP _ (by omega))
        refine ⟨d', e, z.trans hd, ?_, ?_⟩
        · intro k hk
          show _ = some (v (k % 2) (k / 2 % m) (k / 2 / m))
          rw [hk, cell2_mod h1, cell2_div h1]
          rcases Nat.mod_two_eq_zero_or_one k with hm | hm
          · rw [hm, ← a]; congr 1; omega
          · rw [hm, ← b]; congr 1; omega
        · intro k hk
          exact c k (by omega) (by omega)
      · intro i j hij hj c h h'; omega)
    (by
      rintro i j hij hj c ⟨i1, h1, h⟩ ⟨j1, h1', h'⟩
      have := cell2_inj h1 h1' (h.symm.trans h')
      omega)
  obtain ⟨b', e, z, a, -⟩ := key.run
  refine ⟨b', e, z, fun x i1 i2 hx h1 h2 => ?_⟩
  have hdiv : (x + 2 * (i1 + m * i2)) / 2 = i1 + m * i2 := by omega
  rw [a _ ⟨i2, h2, i1, h1, hdiv⟩, hdiv, cell2_mod h1, cell2_div h1, show (x + 2 * (i1 + m * i2)) % 2 = x by omega]

theorem accumulateMse_run {n : Nat} {src o : Buf XReal} {q Q : Nat → Mse} (ho : o.size = 2 * n) (hs : src.size = 2 * n)
    (hQ : ∀ c, c < n → (Q c).Valid ∧ ∀ e, e < 2 → src.data (e + 2 * c) = some ((Q c).enc e))
    (hq : ∀ c, c < n → (q c).Valid ∧ ∀ e, e < 2 → o.data (e + 2 * c) = some ((q c).enc e)) :
    ∃ b', accumulateMaxsumexpKernel n src o = .ok b' ∧ b'.size = o.size ∧ ∀ e c, e < 2 → c < n →
      b'.data (e + 2 * c) = some ((q c + Q c).enc e) := by
  obtain ⟨b', e1, e2, e3⟩ := forN_pairs (m := n) (n := 1) (o := o) (body := fun _ i dst => do
    let ss ← src.rd (2*i+1)
    if FP.eqb ss 0 then .ok dst
    else do
      let ds ← dst.rd (2*i+1)
      if FP.eqb ds 0 then do
        let sm ← src.rd (2*i)
        let dst ← dst.wr (2*i) sm
        dst.wr (2*i+1) ss
      else do
        let dm ← dst.rd (2*i)
        let sm ← src.rd (2*i)
        if FP.ltb dm sm then do
          let dst ← dst.wr (2*i+1) (ss + ds * FP.exp (dm - sm))
          dst.wr (2*i) sm
        else
          dst.wr (2*i+1) (ds + ss * FP.exp (sm - dm))) (by rw [ho]; ring) (fun e c _ => (q c + Q c).enc e) (by
    intro i2 i h2 hi d hd e0 e1
    obtain rfl : i2 = 0 := by omega
    rw [mul_zero, add_zero] at e0 e1 ⊢
    obtain ⟨vq, hq⟩ := hq i hi
    obtain ⟨vQ, hQ⟩ := hQ i hi
    have q0 := hq 0 (by omega)
    have q1 := hq 1 (by omega)
    have Q0 := hQ 0 (by omega)
    have Q1 := hQ 1 (by omega)
    rw [zero_add] at q0 Q0
    rw [add_comm 1] at q1 Q1
    rw [← e0] at q0
    rw [← e1] at q1
    have hlt : 2 * i + 1 < d.size := by omega
    rw [Buf.rd_ok (by omega) Q1, M.bind_ok]
    have h00 : FP.eqb (XReal.fin 0) (XReal.fin 0) = true := (XReal.eqb_fin 0 0).2 rfl
    cases hQi : Q i with
    | empty =>
      simp only [Mse.enc, XReal.zero_def, h00, if_true]
      refine ⟨d, rfl, rfl, ?_, ?_, fun _ _ _ => rfl⟩
      · rw [← Mse.zero_eq, add_zero]; exact q0
      · rw [← Mse.zero_eq, add_zero]; exact q1
    | pair m s =>
      rw [hQi] at vQ Q0
      have hs0 : FP.eqb (XReal.fin s) (XReal.fin 0) = false := by
        rw [Bool.eq_false_iff, Ne, XReal.eqb_fin]; exact (show 0 < s from vQ).ne'
      simp only [Mse.enc, XReal.zero_def, hs0, Bool.false_eq_true, if_false]
      rw [Buf.rd_ok hlt q1, M.bind_ok, Buf.rd_ok (by omega) Q0]
      simp only [M.bind_ok]
      cases hqi : q i with
      | empty =>
        rw [show Mse.empty + Mse.pair m s = Mse.pair m s from rfl]
        simp only [Mse.enc, XReal.zero_def, h00, if_true]
        rw [Buf.wr_put (by omega), M.bind_ok, Buf.wr_put (by simpa [Buf.put] using hlt)]
        refine ⟨_, rfl, rfl, ?_, ?_, ?_⟩
        · simp [Buf.put]
        · simp [Buf.put]
        · intro j h h'; simp [Buf.put, h, h']
      | pair m' s' =>
        rw [hqi] at vq q0
        have hs0 : FP.eqb (XReal.fin s') (XReal.fin 0) = false := by
          rw [Bool.eq_false_iff, Ne, XReal.eqb_fin]; exact (show 0 < s' from vq).ne'
        simp only [Mse.enc, XReal.zero_def, hs0, Bool.false_eq_true, if_false]
        rw [Buf.rd_ok (by omega) q0, M.bind_ok]
        simp only [Mse.enc]
        rw [Mse.add_eq, Mse.add_some]
        by_cases hl : m' < m
        · simp only [(XReal.ltb_fin m' m).2 hl, if_true, XReal.fin_sub, XReal.exp_fin, XReal.fin_mul, XReal.fin_add]
          rw [Buf.wr_put (by omega), M.bind_ok, Buf.wr_put (show 2 * i < _ by simp only [Buf.put]; omega)]
          refine ⟨_, rfl, rfl, ?_, ?_, ?_⟩
          · simp [Buf.put, max_eq_right hl.le]
          · simp [Buf.put, max_eq_right hl.le, add_comm]
          · intro j h h'; simp [Buf.put, h, h']
        · have hl' : FP.ltb (XReal.fin m') (XReal.fin m) = false := by
            rw [Bool.eq_false_iff, Ne, XReal.ltb_fin]; exact hl
          simp only [hl', Bool.false_eq_true, if_false, XReal.fin_sub, XReal.exp_fin, XReal.fin_mul, XReal.fin_add]
          rw [Buf.wr_put (by omega)]
          have hle := not_lt.1 hl
          refine ⟨_, rfl, rfl, ?_, ?_, ?_⟩
          · simpa [Buf.put, max_eq_left hle, Mse.enc] using q0
          · simp [Buf.put, max_eq_left hle]
          · intro j h h'; simp [Buf.put, h'])
  refine ⟨b', ?_, e2, ?_⟩
  · rw [← e1]
    show accumulateMaxsumexpKernel n src o = forN 0 _ o >>= _
    rfl
  · intro e c he hc
    have := e3 e c 0 he hc (by omega)
    rwa [mul_zero, add_zero] at this

theorem maxsumexp_run {m n k : Nat} (hk : 0 < k) {src o : Buf XReal} {x : Nat → XReal} {q : Nat → Mse} (ho : o.size = 2 * (m * n))
    (hs : src.size = m * (k * n)) (hx : ∀ j, j < m * (k * n) → src.data j = some (x j)) (hm : ∀ j, j < m * (k * n) → (x j).NumOrMask)
    (hq : ∀ c, c < m * n → (q c).Valid ∧ ∀ e, e < 2 → o.data (e + 2 * c) = some ((q c).enc e)) :
    ∃ b', maxsumexpKernel m n k src o = .ok b' ∧ b'.size = o.size ∧ ∀ e i1 i2, e < 2 → i1 < m → i2 < n →
      b'.data (e + 2 * (i1 + m * i2)) = some ((q (i1 + m * i2) + ∑ i0 ∈ range k, Mse.of (x (i1 + m * (i0 + k * i2)))).enc e) := by
  refine forN_pairs ho (fun e i1 i2 => (q (i1 + m * i2) + ∑ i0 ∈ range k, Mse.of (x (i1 + m * (i0 + k * i2)))).enc e) ?_
  intro i2 i1 h2 h1 d hd e0 e1
  have hc := cell2_lt h1 h2
  obtain ⟨hv, hq⟩ := hq _ hc
  obtain ⟨p, ep, hp⟩ := mseFold_rep (k := k - 1) (r := fun i0 => x (i1 + m * (i0 + k * i2))) (rd := fun i => src.rd (i2*(m*k) + i1 + (i+1)*m)) (by
    intro i hi
    rw [pos3]
    have := cell3_lt h1 (show i + 1 < k by omega) h2
    exact Buf.rd_ok (hs ▸ this) (hx _ this)) (by
    intro i hi
    exact hm _ (cell3_lt h1 (show i < k by omega) h2))
  rw [show k - 1 + 1 = k by omega] at hp
  have hr0 : src.rd (i2 * (m * k) + i1) = .ok (x (i1 + m * (0 + k * i2))) := by
    have := cell3_lt h1 hk h2
    rw [show i2 * (m * k) + i1 = i1 + m * (0 + k * i2) by ring]
    exact Buf.rd_ok (hs ▸ this) (hx _ this)
  rw [hr0, M.bind_ok, ep, M.bind_ok, show i2 * m + i1 = i1 + m * i2 by ring]
  have g0 := hq 0 (by omega)
  have g1 := hq 1 (by omega)
  rw [zero_add] at g0
  rw [add_comm] at g1
  exact mseStore_rep hp hv (by omega) (e0.trans g0) (e1.trans g1)

end NNTile
