import Verif.Lib.CudaEw
import Verif.Model.Slice
import Verif.Model.Fiber
import Verif.Model.Embedding
import Verif.Model.MaskScalar
import Verif.Model.Transpose
import Verif.Model.Sumnorm
import Verif.Model.Adam
/-! CUDA kernels without barriers, other than the element-wise ones. -/
namespace NNTile
variable {α : Type} [FP α]

/-! ### One-dimensional launches -/

theorem logsumexpCuda_gives {n : Nat} (hn : n ≤ 2^30) {src dst dst' : Buf α} (h : logsumexpKernel n src dst = .ok dst') :
    (logsumexpCuda n : Launch α).Gives [src] dst dst' := by
  unfold logsumexpKernel at h
  unfold logsumexpCuda
  refine ewLaunch_gives (by decide) (by decide) (by decide) (by omega) _ _ dst (fun i x => x = i) (fun _ => False) (fun i j x _ _ hij h1 h2 => hij (h1.symm.trans h2)) (fun _ _ _ h => h)
    (fun _ h => h.elim) _ ?_ ?_ h
  · intro i hi
    simp only [PM.prog, bind, intExpr, if_pos (show 2*i < 2^31 by omega), if_pos (show 2*i+1 < 2^31 by omega)]
    simp [ld, st, Prog.Foot]
  · intro i hi d d' h
    obtain ⟨x, hx, h⟩ := M.bind_eq_ok.1 h
    obtain ⟨y, hy, h⟩ := M.bind_eq_ok.1 h
    simp only [PM.prog, bind, intExpr, if_pos (show 2*i < 2^31 by omega), if_pos (show 2*i+1 < 2^31 by omega), run_ld_src, run_st, List.getD_cons_zero, hx, hy, Except.bind]
    rw [h]
    rfl

theorem accumulateMaxsumexpCuda_gives {n : Nat} (hn : n ≤ 2^30) {src dst dst' : Buf α} (h : accumulateMaxsumexpKernel n src dst = .ok dst') :
    (accumulateMaxsumexpCuda n : Launch α).Gives [src] dst dst' := by
  unfold accumulateMaxsumexpKernel at h
  unfold accumulateMaxsumexpCuda
  refine ewLaunch_gives (by decide) (by decide) (by decide) (by omega) _ _ dst (fun i x => x = 2*i ∨ x = 2*i+1) (fun _ => False) (fun i j x _ _ hij h1 h2 => by omega) (fun _ _ _ h => h)
    (fun _ h => h.elim) _ ?_ ?_ h
  · intro i hi
    generalize Launch.mem _ _ = m0
    simp only [PM.prog, bind, pure, intExpr, if_pos (show 2*i+1 < 2^31 by omega)]
    refine Or.inr ⟨by simp, fun ss _ => ?_⟩
    simp only [ite_apply]
    split
    · trivial
    refine Or.inl ⟨by simp, fun ds => ?_⟩
    simp only
    split
    · simp [ld, st, Prog.Foot]
    refine Or.inl ⟨by simp, fun dm => Or.inr ⟨by simp, fun sm _ => ?_⟩⟩
    simp only
    split <;> simp [ld, st, Prog.Foot]
  · intro i hi d d' h
    obtain ⟨ss, hss, h⟩ := M.bind_eq_ok.1 h
    simp only [PM.prog, bind, pure, intExpr, if_pos (show 2*i+1 < 2^31 by omega), run_ld_src, List.getD_cons_zero, hss, Except.bind]
    cases h1 : FP.eqb ss 0
    swap
    · simp only [h1, if_true] at h ⊢
      cases h
      rfl
    simp only [h1, Bool.false_eq_true, if_false] at h ⊢
    obtain ⟨ds, hds, h⟩ := M.bind_eq_ok.1 h
    simp only [run_ld_dst, hds, Except.bind]
    cases h2 : FP.eqb ds 0
    swap
    · simp only [h2, if_true] at h ⊢
      obtain ⟨sm, hsm, h⟩ := M.bind_eq_ok.1 h
      obtain ⟨d1, hd1, h⟩ := M.bind_eq_ok.1 h
      simp only [run_ld_src, run_st, List.getD_cons_zero, hsm, hss, hd1, Except.bind]
      rw [h]
      rfl
    simp only [h2, Bool.false_eq_true, if_false] at h ⊢
    obtain ⟨dm, hdm, h⟩ := M.bind_eq_ok.1 h
    obtain ⟨sm, hsm, h⟩ := M.bind_eq_ok.1 h
    simp only [run_ld_dst, run_ld_src, hdm, hsm, List.getD_cons_zero, Except.bind]
    cases h3 : FP.ltb dm sm
    · simp only [h3, Bool.false_eq_true, if_false] at h ⊢
      simp only [run_ld_dst, run_ld_src, run_st, List.getD_cons_zero, hss, hds, hdm, hsm, Except.bind]
      rw [h]
      rfl
    · simp only [h3, if_true] at h ⊢
      obtain ⟨d1, hd1, h⟩ := M.bind_eq_ok.1 h
      simp only [run_ld_dst, run_ld_src, run_st, List.getD_cons_zero, hss, hds, hdm, hsm, hd1, Except.bind]
      rw [h]
      rfl

theorem subtractIndexedCuda_gives {asIdx : α → Int} {n_labels n : Nat} (hn : n ≤ 2^31) {val : α} {labels dst dst' : Buf α}
    (hl : ∀ i l, i < n → labels.rd i = .ok l → 0 ≤ asIdx l ∧ asIdx l < n_labels) (h : subtractIndexedKernel asIdx n_labels n val labels dst = .ok dst') :
    (subtractIndexedCuda asIdx n_labels n val).Gives [labels] dst dst' := by
  unfold subtractIndexedKernel at h
  unfold subtractIndexedCuda
  refine ewLaunch_gives (by decide) (by decide) (by decide) (by omega) _ _ dst (fun i x => i * n_labels ≤ x ∧ x < (i+1) * n_labels) (fun _ => False) ?_ (fun _ _ _ h => h)
    (fun _ h => h.elim) _ ?_ ?_ h
  · intro i j x _ _ hij ⟨h1, h2⟩ ⟨h3, h4⟩
    rcases Nat.lt_or_gt_of_ne hij with h | h
    · have := Nat.mul_le_mul_right n_labels (show i + 1 ≤ j from h)
      omega
    · have := Nat.mul_le_mul_right n_labels (show j + 1 ≤ i from h)
      omega
  · intro i hi
    simp only [PM.prog, bind]
    refine Or.inr ⟨by simp, fun l hl' => ?_⟩
    rw [show (.glob 1 : Space) = .glob (0+1) from rfl, mem_rd_src, List.getD_cons_zero] at hl'
    obtain ⟨h1, h2⟩ := hl i l hi hl'
    have h0 : ¬ (asIdx l + i * n_labels < 0) := by
      have : (0 : Int) ≤ (i : Int) * n_labels := by positivity
      omega
    simp only [labelAt, if_neg h0]
    have ho : i * n_labels ≤ (asIdx l + i * n_labels).toNat ∧ (asIdx l + i * n_labels).toNat < (i+1) * n_labels := by
      have e : (i : Int) * n_labels = ((i * n_labels : Nat) : Int) := by push_cast; rfl
      rw [e, Nat.add_mul]
      omega
    exact Or.inl ⟨⟨rfl, ho⟩, fun v => ⟨⟨rfl, ho⟩, trivial⟩⟩
  · intro i hi d d' h
    obtain ⟨l, hl', h⟩ := M.bind_eq_ok.1 h
    simp only [PM.prog, bind, run_ld_src, List.getD_cons_zero, hl', Except.bind]
    obtain ⟨o, ho, h⟩ := M.bind_eq_ok.1 h
    unfold labelOff at ho
    unfold labelAt
    split at ho
    · cases ho
    · next hc =>
      cases ho
      rw [if_neg hc]
      obtain ⟨x, hx, h⟩ := M.bind_eq_ok.1 h
      simp only [run_ld_dst, run_st, hx, Except.bind]
      rw [h]
      rfl

/-- The buffers of `adam_step`: `p`, `grad`, `first_moment`, `second_moment`. -/
def adamTaskBufs (grad : Buf α) (b : AdamBufs α) : Nat → Buf α := taskBufs b.p [grad, b.first_moment, b.second_moment]

theorem adamLoopCuda_works {prep : α → α → α × α} {num_iter : Int} {n : Nat} (hn : n ≤ 2^31) {beta_1 beta_2 eps lr : α} {grad : Buf α} {b b' : AdamBufs α}
    (h : adamLoop prep num_iter n beta_1 beta_2 eps lr grad b = .ok b') :
    (adamLoopCuda prep num_iter n beta_1 beta_2 eps lr).Works (adamTaskBufs grad b) fun bs => bs = adamTaskBufs grad b' := by
  unfold adamLoop at h
  unfold adamLoopCuda
  have u0 : ∀ (b : AdamBufs α) x, Function.update (adamTaskBufs grad b) 0 x = adamTaskBufs grad { b with p := x } := by
    intro b x; funext c
    match c with
    | 0 => rfl
    | c+1 => simp [adamTaskBufs, taskBufs]
  have u2 : ∀ (b : AdamBufs α) x, Function.update (adamTaskBufs grad b) 2 x = adamTaskBufs grad { b with first_moment := x } := by
    intro b x; funext c
    match c with
    | 0 => rfl
    | 1 => rfl
    | 2 => rfl
    | c+3 => simp [adamTaskBufs, taskBufs]
  have u3 : ∀ (b : AdamBufs α) x, Function.update (adamTaskBufs grad b) 3 x = adamTaskBufs grad { b with second_moment := x } := by
    intro b x; funext c
    match c with
    | 0 => rfl
    | 1 => rfl
    | 2 => rfl
    | 3 => rfl
    | c+4 => simp [adamTaskBufs, taskBufs]
  have st_run : ∀ (g : Launch α) (bufs : Nat → Buf α) c i (v : α) (k : Unit → Prog α), Prog.run (st c i v k) (g.mem bufs) = ((bufs c).wr i v).bind fun x => (k ()).run (g.mem (Function.update bufs c x)) := by
    intro g bufs c i v k
    change ((g.mem bufs).wr (.glob c, i) v).bind _ = _
    rw [mem_wr_glob]
    cases (bufs c).wr i v <;> rfl
  have ld_run : ∀ (g : Launch α) (bufs : Nat → Buf α) c i (k : α → Prog α), Prog.run (ld c i k) (g.mem bufs) = ((bufs c).rd i).bind fun v => (k v).run (g.mem bufs) := fun _ _ _ _ _ => rfl
  refine ewLaunch_works (by decide) (by decide) (by decide) hn _ (adamTaskBufs grad) b (fun i l => l.1 ≠ .glob 1 ∧ l.2 = i) (fun l => l.1 = .glob 1)
    (fun i j x _ _ hij h1 h2 => hij (h1.2.symm.trans h2.2)) (fun _ _ h1 h2 => h1.1 h2) _ ?_ ?_ h
  · intro m0 i _
    simp only [PM.prog, bind]
    refine Or.inl ⟨by simp, fun p => Or.inr ⟨rfl, fun gr _ => ?_⟩⟩
    split <;> simp [ld, st, Prog.Foot]
  · intro g i _ d d' h
    obtain ⟨p, hp, h⟩ := M.bind_eq_ok.1 h
    obtain ⟨gr, hgr, h⟩ := M.bind_eq_ok.1 h
    have e0 : ∀ d : AdamBufs α, adamTaskBufs grad d 0 = d.p := fun _ => rfl
    have e1 : ∀ d : AdamBufs α, adamTaskBufs grad d 1 = grad := fun _ => rfl
    have e2 : ∀ d : AdamBufs α, adamTaskBufs grad d 2 = d.first_moment := fun _ => rfl
    have e3 : ∀ d : AdamBufs α, adamTaskBufs grad d 3 = d.second_moment := fun _ => rfl
    simp only [PM.prog, bind, ld_run, e0, e1, hp, hgr, Except.bind]
    by_cases hi : num_iter = 1
    · simp only [if_pos hi] at h ⊢
      obtain ⟨f, hf, h⟩ := M.bind_eq_ok.1 h
      obtain ⟨s, hs, h⟩ := M.bind_eq_ok.1 h
      obtain ⟨q, hq, h⟩ := M.bind_eq_ok.1 h
      cases h
      simp only [st_run, e0, e2, e3, u0, u2, u3, hf, hs, hq, Except.bind]
      rfl
    · simp only [if_neg hi] at h ⊢
      obtain ⟨fv, hfv, h⟩ := M.bind_eq_ok.1 h
      obtain ⟨sv, hsv, h⟩ := M.bind_eq_ok.1 h
      obtain ⟨f, hf, h⟩ := M.bind_eq_ok.1 h
      obtain ⟨s, hs, h⟩ := M.bind_eq_ok.1 h
      obtain ⟨q, hq, h⟩ := M.bind_eq_ok.1 h
      cases h
      simp only [st_run, ld_run, e0, e2, e3, u0, u2, u3, hfv, hsv, hf, hs, hq, Except.bind]
      rfl

end NNTile
