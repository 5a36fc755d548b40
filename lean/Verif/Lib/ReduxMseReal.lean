import Verif.Lib.ReduxAcc
import Verif.Lib.Maxsumexp
/-! Accumulation of pairs of a maximum and a sum of exponents, over the real numbers. -/
namespace NNTile

/-- A maximum and a positive sum of exponents. -/
structure MseG where
  m : ℝ
  t : ℝ
  pos : 0 < t

theorem MseG.ext' {g h : MseG} (h1 : g.m = h.m) (h2 : g.t = h.t) : g = h := by
  cases g; cases h; cases h1; cases h2; rfl

noncomputable instance : Add MseG := ⟨fun g h => ⟨max g.m h.m, g.t + h.t, add_pos g.pos h.pos⟩⟩
theorem MseG.add_m (g h : MseG) : (g + h).m = max g.m h.m := rfl
theorem MseG.add_t (g h : MseG) : (g + h).t = g.t + h.t := rfl
noncomputable instance : AddCommSemigroup MseG where
  add_assoc _ _ _ := MseG.ext' (max_assoc _ _ _) (add_assoc _ _ _)
  add_comm _ _ := MseG.ext' (max_comm _ _) (add_comm _ _)
instance : Inhabited MseG := ⟨⟨0, 1, one_pos⟩⟩

/-- The pair which stands for `g`, added to a pair. -/
noncomputable def pairUpd (g : MseG) (p : Option ℝ × Option ℝ) : Option ℝ × Option ℝ :=
  match p.2 with
  | none => p
  | some s => if s ≤ 0 then (some g.m, some (g.t * Real.exp (-g.m))) else
    match p.1 with
    | none => p
    | some m => (some (max m g.m), some ((s * Real.exp m + g.t) * Real.exp (-max m g.m)))

theorem pairUpd_add (g g' : MseG) (p : Option ℝ × Option ℝ) : pairUpd g (pairUpd g' p) = pairUpd (g + g') p := by
  obtain ⟨x, y⟩ := p
  have hp : ∀ g : MseG, ¬ g.t * Real.exp (-g.m) ≤ 0 := fun g => not_le.2 (mul_pos g.pos (Real.exp_pos _))
  cases y with
  | none => rfl
  | some s =>
    by_cases h : s ≤ 0
    · simp only [pairUpd, h, if_true, hp g', if_false, MseG.add_m, MseG.add_t, max_comm g.m g'.m]
      congr 2
      rw [mul_assoc g'.t, ← Real.exp_add, neg_add_cancel, Real.exp_zero, mul_one, add_comm g'.t]
    · cases x with
      | none => simp only [pairUpd, h, if_false]
      | some m =>
        have h1 : ¬ (s * Real.exp m + g'.t) * Real.exp (-max m g'.m) ≤ 0 :=
          not_le.2 (mul_pos (add_pos (mul_pos (not_le.1 h) (Real.exp_pos _)) g'.pos) (Real.exp_pos _))
        simp only [pairUpd, h, h1, if_false, MseG.add_m, MseG.add_t]
        rw [show max m (max g.m g'.m) = max (max m g'.m) g.m by rw [max_assoc, max_comm g.m]]
        congr 2
        rw [mul_assoc _ (Real.exp (-max m g'.m)), ← Real.exp_add, neg_add_cancel, Real.exp_zero, mul_one]
        ring

/-- The pair with number `i`. -/
def pr (c : Buf ℝ) (i : Nat) : Option ℝ × Option ℝ := (c.data (2 * i), c.data (2 * i + 1))

/-- One of two. -/
def pick (k : Nat) (p : Option ℝ × Option ℝ) : Option ℝ := if k = 0 then p.1 else p.2

theorem pick_pr (c : Buf ℝ) (j : Nat) : pick (j % 2) (pr c (j / 2)) = c.data j := by
  unfold pick pr
  split
  · dsimp only; congr 1; omega
  · dsimp only; congr 1; omega

open Classical in
/-- `W i` is added to the pairs with a number in `I`. -/
noncomputable def pact (I : Nat → Prop) (W : Nat → MseG) (c : Buf ℝ) : Buf ℝ :=
  ⟨c.size, fun j => pick (j % 2) (if I (j / 2) then pairUpd (W (j / 2)) (pr c (j / 2)) else pr c (j / 2))⟩

open Classical in
theorem pr_pact (I : Nat → Prop) (W : Nat → MseG) (c : Buf ℝ) (i : Nat) : pr (pact I W c) i = if I i then pairUpd (W i) (pr c i) else pr c i := by
  have h1 : (2 * i) % 2 = 0 := by omega
  have h2 : (2 * i) / 2 = i := by omega
  have h3 : (2 * i + 1) % 2 = 1 := by omega
  have h4 : (2 * i + 1) / 2 = i := by omega
  conv_lhs => unfold pr pact
  simp only [h1, h2, h3, h4, pick, if_true, one_ne_zero, if_false]

theorem Buf.ext_pr {c d : Buf ℝ} (h : c.size = d.size) (h' : ∀ i, pr c i = pr d i) : c = d := by
  cases c with | mk n f =>
  cases d with | mk k g =>
  cases h
  congr 1
  funext j
  have := pick_pr ⟨n, f⟩ j
  rw [h' (j / 2), pick_pr ⟨n, g⟩ j] at this
  exact this.symm

open Classical in
theorem pact_pact (I J : Nat → Prop) (W V : Nat → MseG) (c : Buf ℝ) :
    pact J V (pact I W c) = pact (fun i => I i ∨ J i) (fun i => if I i then (if J i then V i + W i else W i) else V i) c := by
  apply Buf.ext_pr
  · rfl
  · intro i
    simp only [pr_pact]
    by_cases h1 : I i <;> by_cases h2 : J i <;> simp [h1, h2, pairUpd_add]

/-- The pair can be read by the kernels. -/
def GoodPair (p : Option ℝ × Option ℝ) : Prop := ∃ s, p.2 = some s ∧ 0 ≤ s ∧ (0 < s → ∃ m, p.1 = some m)

theorem GoodPair.upd {p : Option ℝ × Option ℝ} (h : GoodPair p) (g : MseG) : GoodPair (pairUpd g p) := by
  obtain ⟨s, h1, h2, h3⟩ := h
  obtain ⟨x, y⟩ := p
  dsimp only at h1
  subst h1
  by_cases c : s ≤ 0
  · simp only [pairUpd, c, if_true]
    exact ⟨_, rfl, (mul_pos g.pos (Real.exp_pos _)).le, fun _ => ⟨_, rfl⟩⟩
  · obtain ⟨m, rfl⟩ := h3 (not_le.1 c)
    simp only [pairUpd, c, if_false]
    exact ⟨_, rfl, (mul_pos (add_pos (mul_pos (not_le.1 c) (Real.exp_pos _)) g.pos) (Real.exp_pos _)).le, fun _ => ⟨_, rfl⟩⟩

/-- Sums are not negative. -/
def NN (b : Buf ℝ) : Prop := ∀ i v, b.data (2 * i + 1) = some v → 0 ≤ v

theorem NN.pact {b : Buf ℝ} (h : NN b) (I : Nat → Prop) (W : Nat → MseG) : NN (pact I W b) := by
  classical
  intro i v hv
  have hp := pr_pact I W b i
  have hv : (pr (NNTile.pact I W b) i).2 = some v := hv
  rw [hp] at hv
  split at hv
  · unfold pairUpd at hv
    split at hv
    · exact h i v hv
    · next s e =>
      split at hv
      · have hv := Option.some.inj hv
        rw [← hv]
        exact (mul_pos (W i).pos (Real.exp_pos _)).le
      · next c =>
        split at hv
        · exact h i v hv
        · have hv := Option.some.inj hv
          rw [← hv]
          exact (mul_pos (add_pos (mul_pos (not_le.1 c) (Real.exp_pos _)) (W i).pos) (Real.exp_pos _)).le
  · exact h i v hv

/-- As `Acc`, for pairs. -/
def AccM (I : Nat → Prop) (K : Buf ℝ → M (Buf ℝ)) : Prop :=
  ∀ b b', NN b → K b = .ok b' → (∀ i, I i → 2 * i + 1 < b.size ∧ GoodPair (pr b i)) ∧ ∃ W : Nat → MseG,
    ∀ c : Buf ℝ, c.size = b.size → (∀ i, I i → GoodPair (pr c i)) → K c = .ok (pact I W c)

theorem AccM.mono {I J : Nat → Prop} {K : Buf ℝ → M (Buf ℝ)} (h : AccM I K) (e : ∀ i, J i ↔ I i) : AccM J K := by
  have : J = I := funext fun i => propext (e i)
  exact this ▸ h

theorem AccM.nil : AccM (fun _ => False) (fun b => .ok b) := by
  intro b b' _ h
  refine ⟨fun _ h => h.elim, fun _ => default, fun c _ _ => ?_⟩
  refine congrArg Except.ok ?_
  apply Buf.ext_pr
  · rfl
  · intro i
    simp [pr_pact]

theorem AccM.comp {I J : Nat → Prop} {K L : Buf ℝ → M (Buf ℝ)} (h : AccM I K) (h' : AccM J L) : AccM (fun i => I i ∨ J i) (fun b => K b >>= L) := by
  classical
  intro b b' hb e
  dsimp only at e
  rw [M.bind_eq_ok] at e
  obtain ⟨b1, e1, e2⟩ := e
  obtain ⟨d1, W, hW⟩ := h b b1 hb e1
  have hb1 : b1 = pact I W b := Except.ok.inj (e1.symm.trans (hW b rfl fun i hi => (d1 i hi).2))
  subst hb1
  obtain ⟨d2, V, hV⟩ := h' _ b' (hb.pact I W) e2
  have hgood : ∀ c i, GoodPair (pr c i) → GoodPair (pr (pact I W c) i) := by
    intro c i hi
    rw [pr_pact]
    split
    · exact hi.upd _
    · exact hi
  refine ⟨?_, fun i => if I i then (if J i then V i + W i else W i) else V i, fun c hc hd => ?_⟩
  · rintro i hi
    by_cases h1 : I i
    · exact d1 i h1
    · have := d2 i (hi.resolve_left h1)
      rw [pr_pact, if_neg h1] at this
      exact this
  · dsimp only
    rw [hW c hc (fun i hi => hd i (.inl hi)), M.bind_ok, hV (pact I W c) hc (fun i hi => hgood c i (hd i (.inr hi))), pact_pact]

theorem AccM.const' {β : Type} {I : Nat → Prop} {e : M β} {K : β → Buf ℝ → M (Buf ℝ)} (h : ∀ x, e = .ok x → AccM I (K x)) : AccM I (fun b => e >>= fun x => K x b) := by
  intro b b' hn hb
  dsimp only at hb
  rw [M.bind_eq_ok] at hb
  obtain ⟨x, hx, hb⟩ := hb
  obtain ⟨d, W, hW⟩ := h x hx b b' hn hb
  refine ⟨d, W, fun c hc hd => ?_⟩
  dsimp only
  rw [hx, M.bind_ok]
  exact hW c hc hd

theorem AccM.forN {n : Nat} {I : Nat → Nat → Prop} {f : Nat → Buf ℝ → M (Buf ℝ)} (h : ∀ k, AccM (I k) (f k)) : AccM (fun i => ∃ k, k < n ∧ I k i) (fun b => NNTile.forN n f b) := by
  induction n with
  | zero => exact AccM.nil.mono (by simp)
  | succ n ih =>
    refine (AccM.comp ih (h n)).mono fun i => ?_
    constructor
    · rintro ⟨k, hk, hi⟩
      by_cases e : k = n
      · exact .inr (e ▸ hi)
      · exact .inl ⟨k, by omega, hi⟩
    · rintro (⟨k, hk, hi⟩ | hi)
      · exact ⟨k, by omega, hi⟩
      · exact ⟨n, by omega, hi⟩

/-- One pair is written. -/
theorem wr_pair {c : Buf ℝ} {i : Nat} (h : 2 * i + 1 < c.size) (g : MseG) (x y : ℝ) (e : pairUpd g (pr c i) = (some x, some y)) :
    (⟨c.size, fun j => if j = 2 * i + 1 then some y else if j = 2 * i then some x else c.data j⟩ : Buf ℝ) = pact (fun j => j = i) (fun _ => g) c := by
  apply Buf.ext_pr
  · rfl
  · intro k
    rw [pr_pact]
    by_cases hk : k = i
    · subst hk
      rw [if_pos rfl, e]
      simp [pr]
    · rw [if_neg hk]
      unfold pr
      simp only [Prod.mk.injEq]
      have h1 : 2 * k ≠ 2 * i + 1 := by omega
      have h2 : 2 * k ≠ 2 * i := by omega
      have h3 : 2 * k + 1 ≠ 2 * i + 1 := by omega
      have h4 : 2 * k + 1 ≠ 2 * i := by omega
      simp [h1, h2, h4]

theorem mseStore_good {c : Buf ℝ} {i : Nat} (h : 2 * i + 1 < c.size) (hg : GoodPair (pr c i)) {p : MseAcc ℝ} (hc : p.c = 0) (G : MseG) (hm : G.m = p.max)
    (ht : G.t = p.sum * Real.exp p.max) : mseStore (2 * i) p c = .ok (pact (fun j => j = i) (fun _ => G) c) := by
  obtain ⟨s, h1, h2, h3⟩ := hg
  have h1 : c.data (2 * i + 1) = some s := h1
  have hlt : 2 * i < c.size := by omega
  have hsize : ∀ (c : Buf ℝ) j v, (c.put j v).size = c.size := fun _ _ _ => rfl
  unfold mseStore
  rw [if_neg (by simp), Buf.rd_ok h h1, M.bind_ok]
  have fin : ∀ {d : Buf ℝ} {x y : ℝ}, d = ⟨c.size, fun j => if j = 2 * i + 1 then some y else if j = 2 * i then some x else c.data j⟩ → pairUpd G (pr c i) = (some x, some y) →
      (.ok d : M (Buf ℝ)) = .ok (pact (fun j => j = i) (fun _ => G) c) := by
    intro d x y e1 e2
    rw [e1, wr_pair h G x y e2]
  by_cases hs : s = 0
  · subst hs
    rw [if_pos (by simp), Buf.wr_put hlt, M.bind_ok, Buf.wr_put (by rw [hsize]; exact h)]
    refine fin (x := p.max) (y := p.sum) rfl ?_
    simp only [pr, h1, pairUpd, le_refl, if_true, hm, ht]
    rw [mul_assoc, ← Real.exp_add, add_neg_cancel, Real.exp_zero, mul_one]
  · have hs' : 0 < s := lt_of_le_of_ne h2 (Ne.symm hs)
    obtain ⟨m, hm0⟩ := h3 hs'
    have hm0 : c.data (2 * i) = some m := hm0
    rw [if_neg (by simpa using hs), Buf.rd_ok hlt hm0, M.bind_ok]
    have key : pairUpd G (pr c i) = (some (max m p.max), some ((s * Real.exp m + p.sum * Real.exp p.max) * Real.exp (-max m p.max))) := by
      simp only [pr, h1, hm0, pairUpd, not_le.2 hs', if_false, hm, ht]
    by_cases hlm : m < p.max
    · rw [if_pos (by simpa using hlm), Buf.wr_put hlt, M.bind_ok, Buf.wr_put (by rw [hsize]; exact h), M.bind_ok, Buf.wr_put (by rw [hsize, hsize]; exact h)]
      refine fin (x := max m p.max) (y := (s * Real.exp m + p.sum * Real.exp p.max) * Real.exp (-max m p.max)) ?_ key
      rw [max_eq_right hlm.le]
      simp only [Buf.put, hc, exp_real]
      congr 1
      funext j
      by_cases j1 : j = 2 * i + 1
      · simp only [j1, if_true]
        congr 1
        rw [sub_zero, add_mul, mul_assoc, mul_assoc, ← Real.exp_add, ← Real.exp_add, add_neg_cancel, Real.exp_zero, mul_one, ← sub_eq_add_neg, add_comm]
      · simp [j1]
    · rw [if_neg (by simpa using hlm), Buf.wr_put h, M.bind_ok]
      dsimp only
      rw [Buf.wr_put (by rw [hsize]; exact h)]
      refine fin (x := max m p.max) (y := (s * Real.exp m + p.sum * Real.exp p.max) * Real.exp (-max m p.max)) ?_ key
      rw [max_eq_left (not_lt.1 hlm)]
      simp only [Buf.put, hc, exp_real]
      congr 1
      funext j
      by_cases j1 : j = 2 * i + 1
      · simp only [j1, if_true]
        congr 1
        rw [zero_mul, sub_zero, add_mul, mul_assoc, mul_assoc, ← Real.exp_add, ← Real.exp_add, add_neg_cancel, Real.exp_zero, mul_one, ← sub_eq_add_neg, add_comm]
      · by_cases j2 : j = 2 * i
        · simp [j2, hm0]
        · simp [j1, j2]

theorem mseStore_acc {p : MseAcc ℝ} (hp : 0 < p.sum) (hc : p.c = 0) (i : Nat) : AccM (fun j => j = i) (fun b => mseStore (2 * i) p b) := by
  intro b b' hn e
  dsimp only at e
  have hd : 2 * i + 1 < b.size ∧ GoodPair (pr b i) := by
    unfold mseStore at e
    rw [if_neg (by simp), M.bind_eq_ok] at e
    obtain ⟨s, e1, e⟩ := e
    obtain ⟨h1, h2⟩ : 2 * i + 1 < b.size ∧ b.data (2 * i + 1) = some s := by
      unfold Buf.rd at e1
      split at e1
      · next hlt =>
        refine ⟨hlt, ?_⟩
        split at e1
        · next v hv => cases Except.ok.inj e1; exact hv
        · cases e1
      · cases e1
    refine ⟨h1, s, h2, hn i s h2, fun hs => ?_⟩
    rw [if_neg (by simpa using hs.ne'), M.bind_eq_ok] at e
    obtain ⟨m, e2, e⟩ := e
    unfold Buf.rd at e2
    split at e2
    · split at e2
      · next v hv => exact ⟨v, hv⟩
      · cases e2
    · cases e2
  refine ⟨?_, fun _ => ⟨p.max, p.sum * Real.exp p.max, mul_pos hp (Real.exp_pos _)⟩, fun c hc' hg => ?_⟩
  · rintro j rfl
    exact hd
  · exact mseStore_good (by rw [hc']; exact hd.1) (hg i rfl) hc _ rfl rfl

theorem mse_run {k : Nat} {rd : Nat → M ℝ} {x : ℝ} {p : MseAcc ℝ} (h : forN k (fun i p => rd i >>= fun v => (.ok (mseStep v p) : M (MseAcc ℝ))) (⟨x, 1, 0⟩ : MseAcc ℝ) = .ok p) :
    0 < p.sum ∧ p.c = 0 := by
  induction k generalizing p with
  | zero => cases Except.ok.inj h; exact ⟨one_pos, rfl⟩
  | succ k ih =>
    rw [forN_succ, M.bind_eq_ok] at h
    obtain ⟨p1, h1, h2⟩ := h
    obtain ⟨q1, q2⟩ := ih h1
    rw [M.bind_eq_ok] at h2
    obtain ⟨v, _, h2⟩ := h2
    cases Except.ok.inj h2
    unfold mseStep
    rw [if_neg (by simp)]
    split
    · simp only [q2, exp_real]
      have := Real.exp_pos (p1.max - v)
      constructor
      · have := mul_pos q1 this
        linarith
      · ring
    · simp only [q2, exp_real]
      have := Real.exp_pos (v - p1.max)
      constructor
      · linarith
      · ring

theorem maxsumexp_acc (m n k : Nat) (src : Buf ℝ) : AccM (fun i => i < m * n) (fun b => maxsumexpKernel m n k src b) := by
  refine (AccM.forN (I := fun i2 i => ∃ i1, i1 < m ∧ i = i2*m + i1) (fun i2 => AccM.forN (I := fun i1 i => i = i2*m + i1) (fun i1 => AccM.const' fun x0 _ => AccM.const' fun p hp => ?_))).mono fun i => cells2 m n i
  obtain ⟨h1, h2⟩ := mse_run hp
  exact mseStore_acc h1 h2 _

/-- Accumulation by `accumulate_maxsumexp`. -/
noncomputable def redMse : Reduction ℝ where
  cl := reduxMse
  G := Nat → MseG
  act g b := pact (fun i => i < b.size / 2) g b
  D b := ∀ i, i < b.size / 2 → GoodPair (pr b i)
  zero n := ⟨n, fun i => if i < n then some 0 else none⟩
  init_ok n := rfl
  zero_size n := rfl
  zero_D n i hi := by
    simp only at hi
    refine ⟨0, ?_, le_rfl, fun h => absurd h (lt_irrefl _)⟩
    have : 2 * i + 1 < n := by omega
    simp [pr, this]
  act_size g b := rfl
  act_D g b h i hi := by
    classical
    change i < b.size / 2 at hi
    rw [pr_pact, if_pos hi]
    exact (h i hi).upd _
  act_add g g' b := by
    classical
    rw [show (pact (fun i => i < b.size / 2) g' b).size = b.size from rfl, pact_pact]
    apply Buf.ext_pr
    · rfl
    · intro i
      rw [pr_pact, pr_pact]
      by_cases h : i < b.size / 2 <;> simp [h]
  merge_ok g b h := by
    classical
    set c : Buf ℝ := pact (fun i => i < b.size / 2) g ⟨b.size, fun i => if i < b.size then some 0 else none⟩ with hcdef
    have hc : ∀ i, i < b.size / 2 → pr c i = (some (g i).m, some ((g i).t * Real.exp (-(g i).m))) := by
      intro i hi
      rw [hcdef, pr_pact, if_pos hi]
      have : 2 * i + 1 < b.size := by omega
      simp [pr, this, pairUpd]
    change accumulateMaxsumexpKernel (b.size / 2) c b = _
    have hstep : ∀ i, i < b.size / 2 → ∀ d : Buf ℝ, d.size = b.size → pr d i = pr b i → (do
        let ss ← c.rd (2*i+1)
        if FP.eqb ss 0 then .ok d
        else do
          let ds ← d.rd (2*i+1)
          if FP.eqb ds 0 then do
            let sm ← c.rd (2*i)
            let dst ← d.wr (2*i) sm
            dst.wr (2*i+1) ss
          else do
            let dm ← d.rd (2*i)
            let sm ← c.rd (2*i)
            if FP.ltb dm sm then do
              let dst ← d.wr (2*i+1) (ss + ds * FP.exp (dm - sm))
              dst.wr (2*i) sm
            else
              d.wr (2*i+1) (ds + ss * FP.exp (sm - dm)) : M (Buf ℝ)) = .ok (pact (fun j => j = i) (fun _ => g i) d) := by
      intro i hi d hd hpd
      have hlt : 2 * i + 1 < d.size := by omega
      have hlt' : 2 * i < d.size := by omega
      have hcl : 2 * i + 1 < c.size := by rw [show c.size = b.size from rfl]; omega
      have hcl' : 2 * i < c.size := by omega
      have e := hc i hi
      have e1 : c.data (2 * i) = some (g i).m := congrArg Prod.fst e
      have e2 : c.data (2 * i + 1) = some ((g i).t * Real.exp (-(g i).m)) := congrArg Prod.snd e
      have hpos : 0 < (g i).t * Real.exp (-(g i).m) := mul_pos (g i).pos (Real.exp_pos _)
      obtain ⟨s, h1, h2, h3⟩ := h i hi
      rw [← hpd] at h1 h3
      have h1 : d.data (2 * i + 1) = some s := h1
      have hsize : ∀ (d : Buf ℝ) j v, (d.put j v).size = d.size := fun _ _ _ => rfl
      rw [Buf.rd_ok hcl e2, M.bind_ok, if_neg (by simpa using (g i).pos.ne'), Buf.rd_ok hlt h1, M.bind_ok]
      have fin : ∀ {d' : Buf ℝ} {x y : ℝ}, d' = ⟨d.size, fun j => if j = 2 * i + 1 then some y else if j = 2 * i then some x else d.data j⟩ → pairUpd (g i) (pr d i) = (some x, some y) →
          (.ok d' : M (Buf ℝ)) = .ok (pact (fun j => j = i) (fun _ => g i) d) := by
        intro d' x y e1 e2
        rw [e1, wr_pair hlt (g i) x y e2]
      by_cases hs : s = 0
      · subst hs
        rw [if_pos (by simp), Buf.rd_ok hcl' e1, M.bind_ok, Buf.wr_put hlt', M.bind_ok, Buf.wr_put (by rw [hsize]; exact hlt)]
        refine fin rfl ?_
        simp only [pr, h1, pairUpd, le_refl, if_true]
      · have hs' : 0 < s := lt_of_le_of_ne h2 (Ne.symm hs)
        obtain ⟨m, hm0⟩ := h3 hs'
        have hm0 : d.data (2 * i) = some m := hm0
        rw [if_neg (by simpa using hs), Buf.rd_ok hlt' hm0, M.bind_ok, Buf.rd_ok hcl' e1, M.bind_ok]
        have key : pairUpd (g i) (pr d i) = (some (max m (g i).m), some ((s * Real.exp m + (g i).t) * Real.exp (-max m (g i).m))) := by
          simp only [pr, h1, hm0, pairUpd, not_le.2 hs', if_false]
        by_cases hlm : m < (g i).m
        · rw [if_pos (by simpa using hlm), Buf.wr_put hlt, M.bind_ok, Buf.wr_put (by rw [hsize]; exact hlt')]
          refine fin ?_ key
          rw [max_eq_right hlm.le]
          simp only [Buf.put, exp_real]
          congr 1
          funext j
          by_cases j1 : j = 2 * i + 1
          · have : ¬ (2 * i + 1 = 2 * i) := by omega
            simp only [j1, if_true, this, if_false]
            congr 1
            rw [add_mul, mul_assoc, ← Real.exp_add, ← sub_eq_add_neg, add_comm]
          · simp [j1]
        · rw [if_neg (by simpa using hlm), Buf.wr_put hlt]
          refine fin ?_ key
          rw [max_eq_left (not_lt.1 hlm)]
          simp only [Buf.put, exp_real]
          congr 1
          funext j
          by_cases j1 : j = 2 * i + 1
          · simp only [j1, if_true]
            congr 1
            rw [add_mul, mul_assoc, mul_assoc, ← Real.exp_add, ← Real.exp_add, add_neg_cancel, Real.exp_zero, mul_one, neg_add_eq_sub,
              show (g i).m - m - (g i).m = -m by ring]
          · by_cases j2 : j = 2 * i
            · simp [j2, hm0]
            · simp [j1, j2]
    have hloop : ∀ k, k ≤ b.size / 2 → accumulateMaxsumexpKernel k c b = .ok (pact (fun i => i < k) g b) := by
      intro k
      induction k with
      | zero =>
        intro _
        refine congrArg Except.ok (Buf.ext_pr rfl fun i => ?_)
        simp [pr_pact]
      | succ k ih =>
        intro hk
        unfold accumulateMaxsumexpKernel at ih ⊢
        rw [forN_succ, ih (by omega), M.bind_ok]
        refine (hstep k (by omega) (pact (fun i => i < k) g b) rfl (by rw [pr_pact, if_neg (by omega)])).trans ?_
        refine congrArg Except.ok (Buf.ext_pr rfl fun i => ?_)
        simp only [pr_pact]
        by_cases h1 : i = k
        · subst h1; simp
        · by_cases h2 : i < k
          · have : i < k + 1 := by omega
            simp [h1, h2, this]
          · have : ¬ i < k + 1 := by omega
            simp [h1, h2, this]
    exact hloop _ le_rfl

end NNTile
