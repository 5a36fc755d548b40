import Verif.Model.Nrm2
import Verif.Lib.Reduce
/-! Helper lemmas about `nrm2`. -/
namespace NNTile
open Finset
variable {α : Type}

theorem runAll1_append (l l' : List (Task1 α)) (s : Store α) : runAll1 (l ++ l') s = (runAll1 l s >>= fun s' => runAll1 l' s') := by
  unfold runAll1
  rw [List.map_append]
  generalize l.map Task1.toTask = k
  induction k generalizing s with
  | nil => rfl
  | cons t k ih =>
    simp only [List.cons_append, runAll]
    cases t.exec s with
    | error e => rfl
    | ok s' => exact ih s'

/-- Invariant of a loop that submits tasks. -/
theorem runAll1_inv {N : Nat} {g : Nat → List (Task1 α)} {s : Store α} (Inv : Nat → Store α → Prop) (h0 : Inv 0 s)
    (hstep : ∀ i, i < N → ∀ s, Inv i s → ∃ s', runAll1 (g i) s = .ok s' ∧ Inv (i+1) s') :
    ∃ s', runAll1 ((List.range N).flatMap g) s = .ok s' ∧ Inv N s' := by
  induction N with
  | zero => exact ⟨s, rfl, h0⟩
  | succ N ih =>
    obtain ⟨s1, e1, h1⟩ := ih (fun i hi => hstep i (by omega))
    obtain ⟨s2, e2, h2⟩ := hstep N (by omega) s1 h1
    refine ⟨s2, ?_, h2⟩
    rw [List.range_succ, List.flatMap_append, runAll1_append, e1, M.bind_ok]
    simpa using e2

theorem runAll1_cons_ok {t : Task1 α} {ts : List (Task1 α)} {s : Store α} {b' : Buf α} (hal : t.out ∉ t.reads)
    (h : t.fn (t.reads.map s) (t.inp (s t.out)) = .ok b') : runAll1 (t :: ts) s = runAll1 ts (fun k => if k = t.out then b' else s k) := by
  simp only [runAll1, List.map_cons, runAll]
  rw [Task1.exec_ok t s b' hal h, M.bind_ok]

theorem nrm2_run {n : Nat} {src o : Buf ℝ} {x : Nat → ℝ} (ho : 0 < o.size) (hs : src.size = n) (hx : ∀ j, j < n → src.data j = some (x j)) :
    nrm2Kernel n src o = .ok (o.put 0 (Real.sqrt (∑ j ∈ range n, x j ^ 2))) := by
  unfold nrm2Kernel
  have : forN n (fun i q => do
    let x ← src.rd i
    .ok (q + x * x)) (0 : ℝ) = .ok (∑ j ∈ range n, x j ^ 2) := by
    refine forN_eq (fun i => ∑ j ∈ range i, x j ^ 2) (by simp) ?_
    intro i hi
    rw [Buf.rd_ok (by rw [hs]; exact hi) (hx i hi), M.bind_ok, sum_range_succ, pow_two]
  rw [this, M.bind_ok, Buf.wr_put ho]
  rfl

theorem hypot1_run {alpha beta : ℝ} {src o : Buf ℝ} {x y : ℝ} (ho : 0 < o.size) (hs : 0 < src.size) (hx : src.data 0 = some x)
    (hy : beta ≠ 0 → o.data 0 = some y) : hypotKernel 1 alpha src beta o = .ok (o.put 0 (Real.sqrt ((beta * y) ^ 2 + alpha ^ 2 * x ^ 2))) := by
  unfold hypotKernel
  simp only [forN, M.bind_ok]
  by_cases ha : alpha = 0 <;> by_cases hb : beta = 0
  · simp [ha, hb, Buf.wr_put ho]
  · simp only [eqb_real, ha, hb, if_true, if_false, Buf.rd_ok ho (hy hb), M.bind_ok, fabs_real]
    rw [Buf.wr_put ho, ← Real.sqrt_sq_eq_abs]
    norm_num
  · simp only [eqb_real, ha, hb, if_true, if_false, Buf.rd_ok hs hx, M.bind_ok, fabs_real]
    rw [Buf.wr_put ho, ← Real.sqrt_sq_eq_abs]
    congr 3
    ring
  · simp only [eqb_real, ha, hb, if_false, Buf.rd_ok hs hx, Buf.rd_ok ho (hy hb), M.bind_ok, hypot_real]
    rw [Buf.wr_put ho]
    congr 3
    ring

theorem gridOf_ones (S B : List Nat) (hS : Pos S) (hl : B.length = S.length) (h : ∀ i, i < S.length → B.getD i 0 = 1) :
    gridOf S B = S ∧ ∀ t, t.length = S.length → InBox S t → (tileShape S B t).prod = 1 := by
  induction S generalizing B with
  | nil => cases B <;> simp_all [gridOf, tileShape]
  | cons a S ih =>
    cases B with
    | nil => simp at hl
    | cons b B =>
      have hb : b = 1 := by simpa using h 0 (by simp)
      subst hb
      obtain ⟨h1, h2⟩ := ih B (fun x hx => hS x (by simp [hx])) (by simpa using hl) (fun i hi => by simpa using h (i+1) (by simpa using hi))
      have ha : 0 < a := hS a (by simp)
      constructor
      · simp [gridOf] at h1 ⊢
        exact ⟨by omega, h1⟩
      · intro t ht hin
        cases t with
        | nil => simp at ht
        | cons u t =>
          simp only [InBox] at hin
          have := h2 t (by simpa using ht) hin.2
          simp only [tileShape, List.prod_cons, this]
          omega

end NNTile
