import Verif.Model.CrossEntropy
import Verif.Lib.ReduxRun
import Verif.Lib.ReduxSum
import Verif.Lib.Reduce
import Mathlib.Data.NNReal.Defs
/-! Kernels which accumulate into the cells of their output. -/
namespace NNTile
variable {G : Type} [AddCommSemigroup G] [Inhabited G]

/-- If the kernel runs, then it has used the cells `I` of its output, and on any other contents it applies `op (W i)` to each of them and leaves the others as they are. -/
def Acc (op : G → ℝ → ℝ) (I : Nat → Prop) (K : Buf ℝ → M (Buf ℝ)) : Prop :=
  ∀ b b', K b = .ok b' → (∀ i, I i → i < b.size ∧ (b.data i).isSome = true) ∧ ∃ W : Nat → G,
    ∀ c : Buf ℝ, c.size = b.size → (∀ i, I i → (c.data i).isSome = true) →
      ∃ c', K c = .ok c' ∧ c'.size = c.size ∧ (∀ i, I i → c'.data i = (c.data i).map (op (W i))) ∧ ∀ i, ¬ I i → c'.data i = c.data i

variable {op : G → ℝ → ℝ}

theorem Acc.mono {I J : Nat → Prop} {K : Buf ℝ → M (Buf ℝ)} (h : Acc op I K) (e : ∀ i, J i ↔ I i) : Acc op J K := by
  have : J = I := funext fun i => propext (e i)
  exact this ▸ h

theorem Acc.nil : Acc op (fun _ => False) (fun b => .ok b) := by
  intro b b' h
  exact ⟨fun _ h => h.elim, fun _ => default, fun c _ _ => ⟨c, rfl, rfl, fun _ h => h.elim, fun _ _ => rfl⟩⟩

theorem Acc.comp (hop : ∀ g g' x, op g (op g' x) = op (g + g') x) {I J : Nat → Prop} {K L : Buf ℝ → M (Buf ℝ)} (h : Acc op I K) (h' : Acc op J L) :
    Acc op (fun i => I i ∨ J i) (fun b => K b >>= L) := by
  classical
  intro b b' e
  dsimp only at e
  rw [M.bind_eq_ok] at e
  obtain ⟨b1, e1, e2⟩ := e
  obtain ⟨d1, W, hW⟩ := h b b1 e1
  obtain ⟨d2, V, hV⟩ := h' b1 b' e2
  obtain ⟨b1', e1', s1, t1, u1⟩ := hW b rfl (fun i hi => (d1 i hi).2)
  rw [e1] at e1'
  obtain rfl := Except.ok.inj e1'
  have key : ∀ (c c1 : Buf ℝ), (∀ i, I i → c1.data i = (c.data i).map (op (W i))) → (∀ i, ¬ I i → c1.data i = c.data i) →
      ∀ i, (c1.data i).isSome = (c.data i).isSome := by
    intro c c1 h1 h2 i
    by_cases hi : I i
    · rw [h1 i hi, Option.isSome_map]
    · rw [h2 i hi]
  refine ⟨?_, fun i => if I i then (if J i then V i + W i else W i) else V i, ?_⟩
  · rintro i (hi | hi)
    · exact d1 i hi
    · have := d2 i hi
      rw [s1, key b b1 t1 u1] at this
      exact this
  · intro c hc hd
    obtain ⟨c1, e3, s3, t3, u3⟩ := hW c hc (fun i hi => hd i (.inl hi))
    obtain ⟨c2, e4, s4, t4, u4⟩ := hV c1 (by rw [s3, hc, s1]) (fun i hi => by rw [key c c1 t3 u3]; exact hd i (.inr hi))
    refine ⟨c2, by dsimp only; rw [e3, M.bind_ok, e4], by rw [s4, s3], ?_, ?_⟩
    · intro i hi
      dsimp only
      by_cases h1 : I i
      · by_cases h2 : J i
        · rw [t4 i h2, t3 i h1, if_pos h1, if_pos h2, Option.map_map]
          congr 1
          funext x
          exact hop _ _ _
        · rw [u4 i h2, t3 i h1, if_pos h1, if_neg h2]
      · rw [t4 i (hi.resolve_left h1), u3 i h1, if_neg h1]
    · intro i hi
      rw [u4 i (fun h => hi (.inr h)), u3 i (fun h => hi (.inl h))]

omit [AddCommSemigroup G] [Inhabited G] in
theorem Acc.const {β : Type} {I : Nat → Prop} {e : M β} {K : β → Buf ℝ → M (Buf ℝ)} (h : ∀ x, Acc op I (K x)) : Acc op I (fun b => e >>= fun x => K x b) := by
  intro b b' hb
  dsimp only at hb
  rw [M.bind_eq_ok] at hb
  obtain ⟨x, hx, hb⟩ := hb
  obtain ⟨d, W, hW⟩ := h x b b' hb
  refine ⟨d, W, fun c hc hd => ?_⟩
  obtain ⟨c', e1, r⟩ := hW c hc hd
  exact ⟨c', by dsimp only; rw [hx, M.bind_ok, e1], r⟩

theorem Acc.forN (hop : ∀ g g' x, op g (op g' x) = op (g + g') x) {n : Nat} {I : Nat → Nat → Prop} {f : Nat → Buf ℝ → M (Buf ℝ)} (h : ∀ k, Acc op (I k) (f k)) :
    Acc op (fun i => ∃ k, k < n ∧ I k i) (fun b => NNTile.forN n f b) := by
  induction n with
  | zero => exact Acc.nil.mono (by simp)
  | succ n ih =>
    refine (Acc.comp hop ih (h n)).mono fun i => ?_
    constructor
    · rintro ⟨k, hk, hi⟩
      by_cases e : k = n
      · exact .inr (e ▸ hi)
      · exact .inl ⟨k, by omega, hi⟩
    · rintro (⟨k, hk, hi⟩ | hi)
      · exact ⟨k, by omega, hi⟩
      · exact ⟨n, by omega, hi⟩

theorem Acc.cell {j : Nat} {w : G} {f : ℝ → ℝ} (h : ∀ x, f x = op w x) : Acc op (fun i => i = j) (fun b => b.rd j >>= fun r => b.wr j (f r)) := by
  intro b b' e
  dsimp only at e
  rw [M.bind_eq_ok] at e
  obtain ⟨r, e1, e2⟩ := e
  have hj : j < b.size := by
    by_contra c
    simp [Buf.rd, c] at e1
  refine ⟨?_, fun _ => w, ?_⟩
  · rintro i rfl
    refine ⟨hj, ?_⟩
    cases hb : b.data i with
    | none => simp [Buf.rd, hj, hb] at e1
    | some v => rfl
  · intro c hc hd
    obtain ⟨v, hv⟩ := Option.isSome_iff_exists.1 (hd j rfl)
    refine ⟨⟨c.size, fun k => if k = j then some (f v) else c.data k⟩, by dsimp only; rw [Buf.rd_ok (by omega) hv, M.bind_ok, Buf.wr, if_pos (by omega)], rfl, ?_, ?_⟩
    · rintro i rfl
      simp [hv, h]
    · intro i hi
      simp [hi]

/-! ### Kernels -/

/-- Addition. -/
def opAdd (g x : ℝ) : ℝ := x + g

theorem opAdd_op (g g' x : ℝ) : opAdd g (opAdd g' x) = opAdd (g + g') x := by unfold opAdd; ring

theorem storeSum_acc (alpha : ℝ) (i : Nat) (p : ℝ × ℝ) : Acc opAdd (fun j => j = i) (fun b => storeSum alpha 1 i p b) := by
  have : (fun b => storeSum alpha 1 i p b) = fun b => b.rd i >>= fun r => b.wr i ((1 * r - alpha * p.2) + alpha * p.1) := by
    funext b
    simp [storeSum]
  rw [this]
  exact Acc.cell (w := alpha * p.1 - alpha * p.2) (fun x => by unfold opAdd; ring)

theorem totalSumAccum_acc (asIdx : ℝ → Int) (alpha : ℝ) (n_labels n : Nat) (lse src labels : Buf ℝ) : Acc opAdd (fun i => i < 1) (fun b => totalSumAccumKernel asIdx alpha n_labels n lse src labels b) := by
  unfold totalSumAccumKernel
  refine (Acc.const fun p => Acc.cell (j := 0) (w := alpha * p.1 - alpha * p.2) (fun x => by unfold opAdd; ring)).mono fun i => by omega

theorem cells2 (m n i : Nat) : i < m * n ↔ ∃ k, k < n ∧ ∃ j, j < m ∧ i = k * m + j := by
  constructor
  · intro h
    have hm : 0 < m := Nat.pos_of_ne_zero (by rintro rfl; simp at h)
    refine ⟨i / m, (Nat.div_lt_iff_lt_mul hm).2 (by rwa [Nat.mul_comm]), i % m, Nat.mod_lt _ hm, ?_⟩
    rw [Nat.mul_comm, Nat.div_add_mod]
  · rintro ⟨k, hk, j, hj, rfl⟩
    have : (k + 1) * m ≤ n * m := Nat.mul_le_mul_right _ hk
    rw [Nat.add_mul] at this
    rw [Nat.mul_comm m n]
    omega

theorem sumSlice_acc (m n k : Nat) (alpha : ℝ) (src : Buf ℝ) : Acc opAdd (fun i => i < m * n) (fun b => sumSliceKernel m n k alpha src 1 b) := by
  refine (Acc.forN opAdd_op (I := fun i2 i => ∃ i1, i1 < m ∧ i = i2*m + i1) (fun i2 => Acc.forN opAdd_op (I := fun i1 i => i = i2*m + i1) (fun i1 => Acc.const fun p => storeSum_acc alpha _ p))).mono fun i => cells2 m n i

theorem sumprodSlice_acc (m n k : Nat) (alpha : ℝ) (src src2 : Buf ℝ) : Acc opAdd (fun i => i < m * n) (fun b => sumprodSliceKernel m n k alpha src src2 1 b) := by
  refine (Acc.forN opAdd_op (I := fun i2 i => ∃ i1, i1 < m ∧ i = i2*m + i1) (fun i2 => Acc.forN opAdd_op (I := fun i1 i => i = i2*m + i1) (fun i1 => Acc.const fun p => storeSum_acc alpha _ p))).mono fun i => cells2 m n i

theorem sumFiber_acc (m n k bt : Nat) (alpha : ℝ) (src : Buf ℝ) : Acc opAdd (fun i => i < k * bt) (fun b => sumFiberKernel m n k bt alpha src 1 b) := by
  refine (Acc.forN opAdd_op (I := fun i2 i => ∃ i1, i1 < k ∧ i = i1 + i2*k) (fun i2 => Acc.forN opAdd_op (I := fun i1 i => i = i1 + i2*k) (fun i1 => Acc.const fun p => storeSum_acc alpha _ p))).mono fun i => ?_
  rw [cells2]
  simp only [Nat.add_comm]

theorem sumprodFiber_acc (m n k : Nat) (alpha : ℝ) (src src2 : Buf ℝ) : Acc opAdd (fun i => i < k) (fun b => sumprodFiberKernel m n k alpha src src2 1 b) := by
  refine (Acc.forN opAdd_op (I := fun i2 i => i = i2) (fun i2 => Acc.const fun p => storeSum_acc alpha _ p)).mono fun i => ?_
  simp

theorem gemm_acc (tA tB : TransOp) (m n k bt : Nat) (alpha : ℝ) (A B : Buf ℝ) : Acc opAdd (fun i => i < m * n * bt) (fun b => gemmKernel tA tB m n k bt alpha A B 1 b) := by
  refine (Acc.forN opAdd_op (I := fun b i => ∃ j, j < n ∧ ∃ i0, i0 < m ∧ i = b * (m * n) + (i0 + j * m)) (fun b => Acc.forN opAdd_op (I := fun j i => ∃ i0, i0 < m ∧ i = b * (m * n) + (i0 + j * m)) (fun j => Acc.forN opAdd_op (I := fun i0 i => i = b * (m * n) + (i0 + j * m)) (fun i0 =>
    Acc.const fun acc => ?_)))).mono fun i => ?_
  · have : (fun C : Buf ℝ => if FP.eqb (1 : ℝ) 0 then C.wr (b * (m * n) + (i0 + j * m)) (alpha * acc) else
        C.rd (b * (m * n) + (i0 + j * m)) >>= fun r => C.wr (b * (m * n) + (i0 + j * m)) (alpha * acc + 1 * r)) =
        fun C => C.rd (b * (m * n) + (i0 + j * m)) >>= fun r => C.wr (b * (m * n) + (i0 + j * m)) (alpha * acc + 1 * r) := by
      funext C
      simp
    rw [this]
    exact Acc.cell (w := alpha * acc) (fun x => by unfold opAdd; ring)
  · rw [cells2]
    constructor
    · rintro ⟨b, hb, j, hj, rfl⟩
      obtain ⟨k, hk, j', hj', rfl⟩ := (cells2 m n j).1 hj
      exact ⟨b, hb, k, hk, j', hj', by omega⟩
    · rintro ⟨b, hb, j, hj, i0, hi0, rfl⟩
      exact ⟨b, hb, i0 + j * m, (cells2 m n _).2 ⟨j, hj, i0, hi0, by omega⟩, rfl⟩

/-- The square root of the sum of squares, for a sum of squares `g`. -/
noncomputable def opHyp (g : NNReal) (x : ℝ) : ℝ := Real.sqrt (x ^ 2 + g)

theorem opHyp_op (g g' : NNReal) (x : ℝ) : opHyp g (opHyp g' x) = opHyp (g + g') x := by
  unfold opHyp
  rw [Real.sq_sqrt (by positivity)]
  congr 1
  push_cast
  ring

theorem storeNorm_acc {alpha q : ℝ} {p : NormAcc ℝ} (hp : NormInv p q) (i : Nat) : Acc opHyp (fun j => j = i) (fun b => storeNorm |alpha| 1 i p b) := by
  have hq : 0 ≤ alpha ^ 2 * q := by
    have := hp.ssq_nonneg
    rw [← hp.eq]
    positivity
  have : (fun b => storeNorm |alpha| 1 i p b) = fun b => b.rd i >>= fun r => b.wr i (Real.sqrt (r ^ 2 + alpha ^ 2 * q)) := by
    funext b
    by_cases hi : i < b.size
    · cases hb : b.data i with
      | none => simp [storeNorm, Buf.rd, hi, hb]
      | some y => rw [storeNorm_real hp hi (fun _ => hb), Buf.rd_ok hi hb, M.bind_ok, Buf.wr_put hi, one_mul]
    · simp [storeNorm, Buf.rd, hi]
  rw [this]
  exact Acc.cell (w := ⟨alpha ^ 2 * q, hq⟩) (fun x => rfl)

omit [AddCommSemigroup G] [Inhabited G] in
theorem Acc.const' {β : Type} {I : Nat → Prop} {e : M β} {K : β → Buf ℝ → M (Buf ℝ)} (h : ∀ x, e = .ok x → Acc op I (K x)) : Acc op I (fun b => e >>= fun x => K x b) := by
  intro b b' hb
  dsimp only at hb
  rw [M.bind_eq_ok] at hb
  obtain ⟨x, hx, hb⟩ := hb
  obtain ⟨d, W, hW⟩ := h x hx b b' hb
  refine ⟨d, W, fun c hc hd => ?_⟩
  obtain ⟨c', e1, r⟩ := hW c hc hd
  exact ⟨c', by dsimp only; rw [hx, M.bind_ok, e1], r⟩

theorem normInv_run {k : Nat} {rd : Nat → M ℝ} {p : NormAcc ℝ} (h : forN k (fun i p => rd i >>= fun v => (.ok (normStep v p) : M (NormAcc ℝ))) (⟨0, 0, 0⟩ : NormAcc ℝ) = .ok p) :
    ∃ q, NormInv p q := by
  induction k generalizing p with
  | zero => cases Except.ok.inj h; exact ⟨0, le_rfl, rfl, le_rfl, by simp⟩
  | succ k ih =>
    rw [forN_succ, M.bind_eq_ok] at h
    obtain ⟨p1, h1, h2⟩ := h
    obtain ⟨q, hq⟩ := ih h1
    rw [M.bind_eq_ok] at h2
    obtain ⟨x, _, h2⟩ := h2
    cases Except.ok.inj h2
    exact ⟨_, normStep_real hq⟩

theorem normSlice_acc (m n k : Nat) (alpha : ℝ) (src : Buf ℝ) : Acc opHyp (fun i => i < m * n) (fun b => normSliceKernel m n k alpha src 1 b) := by
  refine (Acc.forN opHyp_op (I := fun i2 i => ∃ i1, i1 < m ∧ i = i2*m + i1) (fun i2 => Acc.forN opHyp_op (I := fun i1 i => i = i2*m + i1) (fun i1 => Acc.const' fun p hp => ?_))).mono fun i => cells2 m n i
  rw [fabs_real]
  obtain ⟨q, hq⟩ := normInv_run hp
  exact storeNorm_acc hq _

/-! ### The codelets -/

/-- Initialisation with zeros, accumulation cell by cell. -/
noncomputable def cellRed (op : G → ℝ → ℝ) (hop : ∀ g g' x, op g (op g' x) = op (g + g') x) (cl : ReduxCl ℝ) (hc : cl.init = clearKernel)
    (hm : ∀ (g : Nat → G) (v : Nat → ℝ) (c b : Buf ℝ), c.size = b.size → (∀ i, i < b.size → c.data i = some (op (g i) 0)) → (∀ i, i < b.size → b.data i = some (v i)) →
      cl.merge c b = .ok ⟨b.size, fun i => if i < b.size then some (op (g i) (v i)) else b.data i⟩) : Reduction ℝ where
  cl := cl
  G := Nat → G
  act g b := ⟨b.size, fun i => if i < b.size then (b.data i).map (op (g i)) else b.data i⟩
  D b := ∀ i, i < b.size → (b.data i).isSome = true
  zero n := ⟨n, fun i => if i < n then some 0 else none⟩
  init_ok n := by rw [hc]; rfl
  zero_size n := rfl
  zero_D n i hi := by simp at hi; simp [hi]
  act_size g b := rfl
  act_D g b h i hi := by
    have : i < b.size := hi
    simp [this, h i this]
  act_add g g' b := by
    congr 1
    funext i
    by_cases hi : i < b.size
    · simp only [hi, if_true, Option.map_map]
      congr 1
      funext x
      exact hop _ _ _
    · simp [hi]
  merge_ok g b h := by
    have hv : ∀ i, i < b.size → ∃ v, b.data i = some v := fun i hi => Option.isSome_iff_exists.1 (h i hi)
    choose! v hv using hv
    have := hm g v ⟨b.size, fun i => if i < b.size then (if i < b.size then some (0 : ℝ) else none).map (op (g i)) else (if i < b.size then some 0 else none)⟩ b rfl
      (fun i hi => by simp [hi]) hv
    refine this.trans ?_
    congr 2
    funext i
    by_cases hi : i < b.size
    · simp [hi, hv i hi]
    · simp [hi]

omit [Inhabited G] in
theorem Acc.goodAt {hop : ∀ g g' x, op g (op g' x) = op (g + g') x} {cl : ReduxCl ℝ} {hc hm'} {t : Task1 ℝ} {s s1 : Store ℝ} (hm : t.mode = .REDUX)
    (h : Acc op (fun i => i < (s t.out).size) (fun b => t.fn (t.reads.map s) b)) (e : t.toTask.exec s = .ok s1) : t.GoodAt (cellRed op hop cl hc hm') s := by
  obtain ⟨_, b', hb, _⟩ := Task1.exec_iff.1 e
  rw [hm] at hb
  obtain ⟨d, W, hW⟩ := h (s t.out) b' hb
  refine ⟨fun i hi => (d i hi).2, W, fun c hc hd => ?_⟩
  obtain ⟨c', e1, e2, e3, e4⟩ := hW c hc (fun i hi => hd i (by omega))
  refine (show t.fn (t.reads.map s) c = .ok c' from e1).trans ?_
  congr 1
  cases c' with | mk n dt =>
  change n = c.size at e2
  subst e2
  change Buf.mk _ _ = Buf.mk _ _
  congr 1
  funext i
  by_cases hi : i < c.size
  · rw [if_pos hi]; exact e3 i (by omega)
  · rw [if_neg hi]; exact e4 i (by omega)

/-- Accumulation by `add`. -/
noncomputable def redAdd : Reduction ℝ := cellRed opAdd opAdd_op reduxAdd rfl (by
  intro g v c b hs hc hv
  have := forN_put (n := b.size) (b := b) (f := fun i dst => do
      let x ← c.rd i
      let y ← dst.rd i
      dst.wr i (1 * x + 1 * y)) (fun i => opAdd (g i) (v i)) (by
    intro i hi d hd he
    rw [Buf.rd_ok (by omega) (hc i hi), M.bind_ok, Buf.rd_ok (by omega) (he.trans (hv i hi)), M.bind_ok, Buf.wr_put (by omega)]
    congr 2
    unfold opAdd
    ring)
  exact this)

/-- Accumulation by `hypot`. -/
noncomputable def redHyp : Reduction ℝ := cellRed opHyp opHyp_op reduxHypot rfl (by
  intro g v c b hs hc hv
  have := forN_put (n := b.size) (b := b) (f := fun i dst => do
      let x ← c.rd i
      let y ← dst.rd i
      dst.wr i (FP.hypot (1 * x) (1 * y))) (fun i => opHyp (g i) (v i)) (by
    intro i hi d hd he
    rw [Buf.rd_ok (by omega) (hc i hi), M.bind_ok, Buf.rd_ok (by omega) (he.trans (hv i hi)), M.bind_ok, Buf.wr_put (by omega)]
    congr 2
    rw [hypot_real, one_mul, one_mul, opHyp, opHyp, Real.sq_sqrt (by positivity)]
    congr 1
    ring)
  have hz1 : FP.eqb (1 : ℝ) 0 = false := by simp
  show hypotKernel b.size 1 c 1 b = _
  unfold hypotKernel
  simp only [hz1, Bool.false_eq_true, if_false]
  exact this)

end NNTile
