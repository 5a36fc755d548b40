import Verif.Lib.CudaBlockSum
import Mathlib.Algebra.BigOperators.Group.Finset.Sigma
import Mathlib.Tactic.Linarith
/-! `sum_slice`, `sumprod_slice`, `sum_fiber`, `sumprod_fiber` on GPU. -/
namespace NNTile
open Finset

/-! ### Sums with a stride -/

theorem foldP_add (n : Nat) (f : Nat → ℝ) (s : ℝ) : foldP n (fun i s => s + f i) s = s + ∑ i ∈ range n, f i := by
  induction n with
  | zero => simp [foldP]
  | succ n ih => rw [foldP, ih, sum_range_succ, add_assoc]

theorem foldP_add2 (n m : Nat) (f : Nat → Nat → ℝ) (s : ℝ) : foldP n (fun i s => foldP m (fun j s => s + f i j) s) s = s + ∑ i ∈ range n, ∑ j ∈ range m, f i j := by
  simp only [foldP_add]

theorem sum_strided {z k tz : Nat} (hz : z < tz) (f : Nat → ℝ) : ∑ q ∈ range (strideCount z k tz), f (z + q * tz) = ∑ i ∈ (range k).filter (· % tz = z), f i := by
  have : (range k).filter (· % tz = z) = (range (strideCount z k tz)).image fun q => z + q * tz := by
    ext i
    have h := mem_strided (n := k) hz (i := i)
    simp only [strided, List.mem_map, List.mem_range] at h
    simp only [mem_filter, mem_range, mem_image]
    exact h.symm
  rw [this, sum_image]
  intro a _ b _ h
  have h : z + a * tz = z + b * tz := h
  exact Nat.eq_of_mul_eq_mul_right (show 0 < tz by omega) (by omega)

theorem sum_all_strided {tz : Nat} (k : Nat) (hz : 0 < tz) (f : Nat → ℝ) : ∑ z ∈ range tz, ∑ i ∈ (range k).filter (· % tz = z), f i = ∑ i ∈ range k, f i :=
  sum_fiberwise_of_maps_to (fun i _ => mem_range.2 (Nat.mod_lt i hz)) f

theorem list_sum_real (n : Nat) (f : Nat → ℝ) : ((List.range n).map f).sum = ∑ i ∈ range n, f i := by
  induction n with
  | zero => simp
  | succ n ih => rw [List.range_succ, List.map_append, List.sum_append, ih, sum_range_succ]; simp

/-! ### What the CPU kernel does -/

theorem Buf.rd_eq_ok {α : Type} {b : Buf α} {i : Nat} {v : α} (h : b.rd i = .ok v) : i < b.size ∧ b.data i = some v := by
  unfold Buf.rd at h
  split at h
  swap
  · cases h
  split at h
  · cases h; constructor <;> assumption
  · cases h

theorem Buf.wr_eq_ok {α : Type} {b b' : Buf α} {i : Nat} {v : α} (h : b.wr i v = .ok b') : i < b.size ∧ b'.size = b.size ∧ (∀ x, x ≠ i → b'.data x = b.data x) ∧ b'.rd i = .ok v := by
  unfold Buf.wr at h
  split at h
  swap
  · cases h
  rename_i hi
  cases h
  refine ⟨hi, rfl, fun x hx => by simp [hx], ?_⟩
  exact Buf.rd_ok hi (by simp)

theorem Buf.rd_congr {α : Type} {b b' : Buf α} {i : Nat} (h1 : b.size = b'.size) (h2 : b.data i = b'.data i) : b.rd i = b'.rd i := by
  unfold Buf.rd
  rw [h1, h2]

theorem storeSum_frame {alpha beta : ℝ} {i : Nat} {p : ℝ × ℝ} {e e' : Buf ℝ} (h : storeSum alpha beta i p e = .ok e') : e'.size = e.size ∧ ∀ x, x ≠ i → e'.data x = e.data x := by
  unfold storeSum at h
  split at h
  · exact ⟨(Buf.wr_eq_ok h).2.1, (Buf.wr_eq_ok h).2.2.1⟩
  · obtain ⟨r, _, h⟩ := M.bind_eq_ok.1 h
    exact ⟨(Buf.wr_eq_ok h).2.1, (Buf.wr_eq_ok h).2.2.1⟩

theorem storeSum_ok {alpha beta : ℝ} {i : Nat} {p : ℝ × ℝ} (hp : p.2 = 0) {e e' : Buf ℝ} (h : storeSum alpha beta i p e = .ok e') :
    ∃ y, i < e.size ∧ (beta ≠ 0 → e.rd i = .ok y) ∧ e'.rd i = .ok (beta * y + alpha * p.1) := by
  unfold storeSum at h
  by_cases hb : beta = 0
  · rw [if_pos (by simpa using hb)] at h
    refine ⟨0, (Buf.wr_eq_ok h).1, fun h => (h hb).elim, ?_⟩
    rw [(Buf.wr_eq_ok h).2.2.2, mul_zero, zero_add]
  · rw [if_neg (by simpa using hb)] at h
    obtain ⟨r, hr, h⟩ := M.bind_eq_ok.1 h
    refine ⟨r, (Buf.wr_eq_ok h).1, fun _ => hr, ?_⟩
    rw [(Buf.wr_eq_ok h).2.2.2, hp, mul_zero, sub_zero]

theorem items_store {ι : Type} {K : List ι} (hK : K.Nodup) {acc : ι → M (ℝ × ℝ)} {o : ι → Nat} (ho : ∀ i ∈ K, ∀ j ∈ K, o i = o j → i = j) {alpha beta : ℝ} {dst dst' : Buf ℝ}
    (h : runItems (fun i d => acc i >>= fun p => storeSum alpha beta (o i) p d) K dst = .ok dst') :
    dst'.size = dst.size ∧ (∀ x, (∀ i ∈ K, o i ≠ x) → dst'.data x = dst.data x) ∧
      ∀ i ∈ K, ∃ p, acc i = .ok p ∧ (p.2 = 0 → ∃ y, o i < dst.size ∧ (beta ≠ 0 → dst.rd (o i) = .ok y) ∧ dst'.rd (o i) = .ok (beta * y + alpha * p.1)) := by
  obtain ⟨h1, h2, h3⟩ := runItems_own (own := fun i x => o i = x) hK (fun i hi j hj hne x hx hy => hne (ho i hi j hj (hx.trans hy.symm))) (fun i _ d d' h => by
    obtain ⟨p, _, h⟩ := M.bind_eq_ok.1 h
    exact ⟨(storeSum_frame h).1, fun x hx => (storeSum_frame h).2 x fun e => hx e.symm⟩) h
  refine ⟨h1, h2, fun i hi => ?_⟩
  obtain ⟨e, e', h4, h5, h6, h7⟩ := h3 i hi
  obtain ⟨p, hp, h4⟩ := M.bind_eq_ok.1 h4
  refine ⟨p, hp, fun hp0 => ?_⟩
  obtain ⟨y, y1, y2, y3⟩ := storeSum_ok hp0 h4
  refine ⟨y, h5 ▸ y1, fun hb => ?_, ?_⟩
  · rw [← y2 hb]; exact (Buf.rd_congr h5 (h6 _ rfl)).symm
  · rw [← y3]; exact Buf.rd_congr (by rw [h1, (storeSum_frame h4).1, h5]) (h7 _ rfl)

/-- The contents of a cell. -/
noncomputable def Buf.val (b : Buf ℝ) (i : Nat) : ℝ := (b.data i).getD 0

theorem Buf.rd_val {b : Buf ℝ} {i : Nat} {x : ℝ} (h : b.rd i = .ok x) : b.rd i = .ok (b.val i) := by
  rw [h, Buf.val, (Buf.rd_eq_ok h).2, Option.getD_some]

theorem forN_reads {σ β : Type} {k : Nat} {rd : Nat → M β} {g : β → σ → σ} {s s' : σ} (h : forN k (fun i p => rd i >>= fun v => (.ok (g v p) : M σ)) s = .ok s') :
    ∀ i, i < k → ∃ x, rd i = .ok x := by
  induction k generalizing s' with
  | zero => intro i hi; omega
  | succ k ih =>
    rw [forN_succ] at h
    obtain ⟨s1, h1, h2⟩ := M.bind_eq_ok.1 h
    obtain ⟨x, hx, _⟩ := M.bind_eq_ok.1 h2
    intro i hi
    by_cases e : i = k
    · subst e; exact ⟨x, hx⟩
    · exact ih h1 i (by omega)

/-- A loop whose body is total when its reads are. -/
theorem forN2_reads {σ : Type} {n : Nat} {f : Nat → σ → M σ} {s s' : σ} (h : forN n f s = .ok s') : ∀ i, i < n → ∃ a b, f i a = .ok b := by
  induction n generalizing s' with
  | zero => intro i hi; omega
  | succ k ih =>
    rw [forN_succ] at h
    obtain ⟨s1, h1, h2⟩ := M.bind_eq_ok.1 h
    intro i hi
    by_cases e : i = k
    · subst e; exact ⟨s1, s', h2⟩
    · exact ih h1 i (by omega)

theorem kahan_ok {k : Nat} {rd : Nat → M ℝ} {p : ℝ × ℝ} (h : forN k (fun i p => rd i >>= fun v => (.ok (kahan v p) : M (ℝ × ℝ))) ((0 : ℝ), (0 : ℝ)) = .ok p)
    {x : Nat → ℝ} (hx : ∀ i, i < k → rd i = .ok (x i)) : p = (∑ i ∈ range k, x i, 0) := by
  rw [kahan_sum (x := x) 0 hx, zero_add] at h
  cases h
  rfl

/-! ### The grid of slices -/

section
variable {α : Type}

/-- The launch of `sliceLaunch`. -/
def sliceG (m n tz shared : Nat) (body : Tid → Nat → Nat → Nat → PM α Unit) : Launch α where
  grid := ⟨(m + dimOf m 8 - 1) / dimOf m 8, (n + dimOf n 8 - 1) / dimOf n 8, 1⟩
  threads := ⟨dimOf m 8, dimOf n 8, tz⟩
  shared := shared
  body t :=
    let i0 := gidIndex t.thr.x t.blk.x (dimOf m 8)
    let i1 := gidIndex t.thr.y t.blk.y (dimOf n 8)
    if i0 < m ∧ i1 < n then (body t (t.thr.x + dimOf m 8 * t.thr.y) i0 i1).prog else .done

variable {m n tz shared : Nat} (hm : 0 < m ∧ m < 2^31) (hn : 0 < n ∧ n ≤ 8 * 65535) (htz : 0 < tz ∧ tz ≤ 16) {body : Tid → Nat → Nat → Nat → PM α Unit}
include hm hn

theorem sliceLaunch_eq : sliceLaunch m n tz shared body = .ok (sliceG m n tz shared body) := by
  have h1 := dimOf_pos hm.1 (show 0 < 8 by omega)
  have h2 := dimOf_pos hn.1 (show 0 < 8 by omega)
  unfold sliceLaunch
  simp only [show ((8 : Int)) = ((8 : Nat) : Int) from rfl, dimOf_eq hm.2, dimOf_eq (show n < 2^31 by omega)]
  rw [if_neg (by omega)]
  have b1 := blocks_le m _ hm.1 h1
  have b2 := blocks_le n _ hn.1 h2
  rw [uint32_eq (by omega), uint32_eq (by omega)]
  rfl

include htz in
theorem sliceG_valid : (sliceG m n tz shared body).Valid := by
  have h1 := dimOf_pos hm.1 (show 0 < 8 by omega)
  have h2 := dimOf_pos hn.1 (show 0 < 8 by omega)
  have b1 := blocks_le m _ hm.1 h1
  have c1 := blocks_pos hm.1 h1
  have c2 := blocks_pos hn.1 h2
  have b2 := blocks_lt16 hn.1 (show 0 < 8 by omega) (show n ≤ 65535 * 8 by omega)
  have d1 : dimOf m 8 ≤ 8 := Nat.min_le_right _ _
  have d2 : dimOf n 8 ≤ 8 := Nat.min_le_right _ _
  refine ⟨c1, by simp only [sliceG]; omega, c2, b2, le_refl 1, by simp only [sliceG]; omega, h1, by simp only [sliceG]; omega, h2, by simp only [sliceG]; omega, htz.1, by simp only [sliceG]; omega, ?_⟩
  simp only [sliceG]
  calc dimOf m 8 * dimOf n 8 * tz ≤ 8 * 8 * 16 := Nat.mul_le_mul (Nat.mul_le_mul d1 d2) htz.2
    _ = 1024 := by norm_num

/-- The fiber of a thread. -/
def sliceI0 (m : Nat) (t : Tid) : Nat := t.thr.x + t.blk.x * dimOf m 8
def sliceI1 (n : Nat) (t : Tid) : Nat := t.thr.y + t.blk.y * dimOf n 8

theorem sliceG_body {t : Tid} (ht : (sliceG m n tz shared body).Has t) :
    (sliceG m n tz shared body).body t = if sliceI0 m t < m ∧ sliceI1 n t < n then (body t (t.thr.x + dimOf m 8 * t.thr.y) (sliceI0 m t) (sliceI1 n t)).prog else .done := by
  have h1 := dimOf_pos hm.1 (show 0 < 8 by omega)
  have h2 := dimOf_pos hn.1 (show 0 < 8 by omega)
  obtain ⟨t1, t2, t3, t4, t5, t6⟩ := ht
  have g1 := gid_lt hm.2 h1 (Nat.min_le_left _ _) t4 t1
  have g2 := gid_lt (show n < 2^31 by omega) h2 (Nat.min_le_left _ _) t5 t2
  simp only [sliceG, gidIndex_eq g1, gidIndex_eq g2]
  rfl

omit hm hn in
theorem slice_slot_lt {t : Tid} (ht : (sliceG m n tz shared body).Has t) : t.thr.x + dimOf m 8 * t.thr.y < 64 := by
  obtain ⟨t1, t2, t3, t4, t5, t6⟩ := ht
  have d1 : dimOf m 8 ≤ 8 := Nat.min_le_right _ _
  have d2 : dimOf n 8 ≤ 8 := Nat.min_le_right _ _
  simp only [sliceG] at t4 t5
  have : t.thr.y + 1 ≤ 8 := by omega
  have e := Nat.mul_le_mul d1 this
  rw [Nat.mul_add] at e
  omega

omit hm hn in
theorem slice_slot_inj {t u : Tid} (ht : (sliceG m n tz shared body).Has t) (hu : (sliceG m n tz shared body).Has u) (h : t.thr.x + dimOf m 8 * t.thr.y = u.thr.x + dimOf m 8 * u.thr.y) :
    t.thr.x = u.thr.x ∧ t.thr.y = u.thr.y := by
  have a := ht.2.2.2.1
  have b := hu.2.2.2.1
  simp only [sliceG] at a b
  have e1 := tid_eta (y := t.thr.y) a
  have e2 := tid_eta (y := u.thr.y) b
  rw [Nat.mul_comm (dimOf m 8), Nat.mul_comm (dimOf m 8)] at h
  rw [← h] at e2
  exact ⟨e1.2.symm.trans e2.2, e1.1.symm.trans e2.1⟩

omit hm hn in
theorem slice_ext {t u : Tid} (ht : (sliceG m n tz shared body).Has t) (hu : (sliceG m n tz shared body).Has u) (h0 : sliceI0 m t = sliceI0 m u) (h1 : sliceI1 n t = sliceI1 n u)
    (hz : t.thr.z = u.thr.z) : t = u := by
  obtain ⟨⟨a, b, c⟩, ⟨x, y, z⟩⟩ := t
  obtain ⟨⟨a', b', c'⟩, ⟨x', y', z'⟩⟩ := u
  obtain ⟨t1, t2, t3, t4, t5, t6⟩ := ht
  obtain ⟨u1, u2, u3, u4, u5, u6⟩ := hu
  simp only [sliceG] at *
  simp only [sliceI0, sliceI1] at h0 h1
  have e1 := tid_eta (y := a) t4
  have e2 := tid_eta (y := a') u4
  have e3 := tid_eta (y := b) t5
  have e4 := tid_eta (y := b') u5
  rw [h0] at e1
  rw [h1] at e3
  have := e1.1.symm.trans e2.1
  have := e1.2.symm.trans e2.2
  have := e3.1.symm.trans e4.1
  have := e3.2.symm.trans e4.2
  have : c = c' := by omega
  subst_vars
  rfl

/-- The thread of fiber `(i0, i1)` with number `z`. -/
def sliceTid (m n i0 i1 z : Nat) : Tid := ⟨⟨i0 / dimOf m 8, i1 / dimOf n 8, 0⟩, ⟨i0 % dimOf m 8, i1 % dimOf n 8, z⟩⟩

theorem sliceTid_has {i0 i1 z : Nat} (h0 : i0 < m) (h1 : i1 < n) (hz : z < tz) : (sliceG m n tz shared body).Has (sliceTid m n i0 i1 z) ∧ sliceI0 m (sliceTid m n i0 i1 z) = i0 ∧
    sliceI1 n (sliceTid m n i0 i1 z) = i1 := by
  have p1 := dimOf_pos hm.1 (show 0 < 8 by omega)
  have p2 := dimOf_pos hn.1 (show 0 < 8 by omega)
  refine ⟨⟨blk_lt p1 h0, blk_lt p2 h1, Nat.one_pos, Nat.mod_lt _ p1, Nat.mod_lt _ p2, hz⟩, ?_, ?_⟩
  · simp only [sliceI0, sliceTid]
    rw [Nat.mul_comm]; exact Nat.mod_add_div _ _
  · simp only [sliceI1, sliceTid]
    rw [Nat.mul_comm]; exact Nat.mod_add_div _ _

omit hm hn in
theorem slice_perm {t : Tid} (ht : (sliceG m n tz shared body).Has t) (ha : sliceI0 m t < m ∧ sliceI1 n t < n) :
    ((((sliceG m n tz shared body).blockL (fun t => sliceI0 m t < m ∧ sliceI1 n t < n) t.blk).filter fun u => decide (u.thr.x + dimOf m 8 * u.thr.y = t.thr.x + dimOf m 8 * t.thr.y)).Perm
      ((List.range tz).map fun z => ⟨t.blk, ⟨t.thr.x, t.thr.y, z⟩⟩)) := by
  refine (List.perm_ext_iff_of_nodup (Launch.blockL_nodup.filter _) (List.nodup_range.map fun a b h => by simpa using h)).2 fun u => ?_
  simp only [List.mem_filter, Launch.mem_blockL, List.mem_map, List.mem_range, decide_eq_true_eq]
  constructor
  · rintro ⟨⟨h1, h2, h3⟩, h4⟩
    obtain ⟨e1, e2⟩ := slice_slot_inj h2 ht h4
    refine ⟨u.thr.z, h2.2.2.2.2.2, ?_⟩
    rw [← h1, ← e1, ← e2]
  · rintro ⟨z, hz, rfl⟩
    exact ⟨⟨rfl, ⟨ht.1, ht.2.1, ht.2.2.1, ht.2.2.2.1, ht.2.2.2.2.1, hz⟩, ha⟩, rfl⟩
end

section
variable {m n k tz : Nat} (hm : 0 < m ∧ m < 2^31) (hn : 0 < n ∧ n ≤ 8 * 65535) (htz : 0 < tz ∧ tz ≤ 16)
include hm hn htz

/-- Sums over slices: `x i1 i0 j` is what the CPU kernel adds for fiber `(i0, i1)` and index `j`. -/
theorem sliceSum_gives {srcs : List (Buf ℝ)} {alpha beta : ℝ} {dst dst' : Buf ℝ} (rd : Nat → Nat → Nat → PM ℝ ℝ) (acc : Nat → Nat → M (ℝ × ℝ)) (x : Nat → Nat → Nat → ℝ)
    (hrd : ∀ g : Launch ℝ, ∀ i1 i0 j, i1 < n → i0 < m → j < k → (rd i1 i0 j).Reads (g.mem (taskBufs dst srcs)) (x i1 i0 j))
    (hacc : ∀ i1 i0 p, i1 < n → i0 < m → acc i1 i0 = .ok p → p = (∑ j ∈ range k, x i1 i0 j, 0))
    (h : forN n (fun i1 dst => forN m (fun i0 dst => acc i1 i0 >>= fun p => storeSum alpha beta (i1*m + i0) p dst) dst) dst = .ok dst') :
    (sliceG m n tz 64 fun t slot i0 i1 => do
      let sum ← forP (strideCount t.thr.z k tz) (fun q sum => rd i1 i0 (t.thr.z + q*tz) >>= fun x => pure (sum + x)) (0 : ℝ)
      blockSum t.blk slot (t.thr.z = 0) sum (storeSumCuda alpha beta (i1*m + i0))).Gives srcs dst dst' := by
  classical
  rw [forN2_items (fun i1 i0 dst => acc i1 i0 >>= fun p => storeSum alpha beta (i1*m + i0) p dst)] at h
  have hpos : ∀ {a b a' b' : Nat}, b < m → b' < m → a * m + b = a' * m + b' → a = a' ∧ b = b' := by
    intro a b a' b' hb hb' e
    have e1 := tid_eta (y := a) hb
    have e2 := tid_eta (y := a') hb'
    rw [Nat.add_comm, e, Nat.add_comm] at e1
    exact ⟨e1.1.symm.trans e2.1, e1.2.symm.trans e2.2⟩
  obtain ⟨s1, s2, s3⟩ := items_store (o := fun p : Nat × Nat => p.1*m + p.2) (List.Nodup.product List.nodup_range List.nodup_range)
    (fun i hi j hj e => by
      have hi := mem_product_range.1 hi
      have hj := mem_product_range.1 hj
      have := hpos hi.2 hj.2 e
      exact Prod.ext this.1 this.2) h
  refine blockSum_gives (sliceG_valid hm hn htz) (act := fun t => sliceI0 m t < m ∧ sliceI1 n t < n) (slot := fun t => t.thr.x + dimOf m 8 * t.thr.y) (leader := fun t => t.thr.z = 0)
    (wr := fun _ => True) (out := fun t => sliceI1 n t * m + sliceI0 m t)
    (pre := fun t => forP (strideCount t.thr.z k tz) (fun q sum => rd (sliceI1 n t) (sliceI0 m t) (t.thr.z + q*tz) >>= fun x => pure (sum + x)) (0 : ℝ))
    (v := fun t => ∑ i ∈ (range k).filter (· % tz = t.thr.z), x (sliceI1 n t) (sliceI0 m t) i) (alpha := alpha) (beta := beta) ?_ ?_ ?_ ?_ ?_ ?_ s1 ?_ ?_
  · intro t ht
    rw [sliceG_body hm hn ht]
    simp only [if_true]
  · intro t ht ha
    have hz : t.thr.z < tz := ht.2.2.2.2.2
    have := reads_forP (m := (sliceG m n tz 64 fun t slot i0 i1 => do
      let sum ← forP (strideCount t.thr.z k tz) (fun q sum => rd i1 i0 (t.thr.z + q*tz) >>= fun x => pure (sum + x)) (0 : ℝ)
      blockSum t.blk slot (t.thr.z = 0) sum (storeSumCuda alpha beta (i1*m + i0))).mem (taskBufs dst srcs))
      (g := fun q s => s + x (sliceI1 n t) (sliceI0 m t) (t.thr.z + q*tz)) (strideCount t.thr.z k tz)
      (f := fun q sum => rd (sliceI1 n t) (sliceI0 m t) (t.thr.z + q*tz) >>= fun x => pure (sum + x)) (fun q hq s => reads_bind (hrd _ _ _ _ ha.2 ha.1 (by
        have := (mem_strided (n := k) hz (i := t.thr.z + q*tz)).1 (List.mem_map.2 ⟨q, List.mem_range.2 hq, rfl⟩)
        exact this.1)) (reads_pure _ _)) (0 : ℝ)
    rw [foldP_add, zero_add, sum_strided hz] at this
    exact this
  · intro t ht ha
    exact slice_slot_lt ht
  · intro t u ht ha hl hu hua hul hb hs
    obtain ⟨e1, e2⟩ := slice_slot_inj ht hu hs
    refine slice_ext ht hu ?_ ?_ (hl.trans hul.symm)
    · simp only [sliceI0, e1, hb]
    · simp only [sliceI1, e2, hb]
  · intro t ht ha
    refine ⟨⟨t.blk, ⟨t.thr.x, t.thr.y, 0⟩⟩, ⟨ht.1, ht.2.1, ht.2.2.1, ht.2.2.2.1, ht.2.2.2.2.1, htz.1⟩, ha, rfl, rfl, rfl⟩
  · intro t u ht ha hl _ hu hua hul _ ho
    have := hpos ha.1 hua.1 ho
    exact slice_ext ht hu this.2 this.1 (hl.trans hul.symm)
  · intro y hy
    refine s2 y fun p hp e => ?_
    have hp := mem_product_range.1 hp
    obtain ⟨b1, b2, b3⟩ := sliceTid_has (tz := tz) (shared := 64) (body := fun t slot i0 i1 => do
      let sum ← forP (strideCount t.thr.z k tz) (fun q sum => rd i1 i0 (t.thr.z + q*tz) >>= fun x => pure (sum + x)) (0 : ℝ)
      blockSum t.blk slot (t.thr.z = 0) sum (storeSumCuda alpha beta (i1*m + i0))) hm hn hp.2 hp.1 htz.1
    refine hy _ b1 ⟨by rw [b2]; exact hp.2, by rw [b3]; exact hp.1⟩ rfl trivial ?_
    rw [b2, b3]
    exact e
  · intro t ht ha hl _
    obtain ⟨p, p1, p2⟩ := s3 (sliceI1 n t, sliceI0 m t) (mem_product_range.2 ⟨ha.2, ha.1⟩)
    have hp := hacc _ _ p ha.2 ha.1 p1
    obtain ⟨y, y1, y2, y3⟩ := p2 (by rw [hp])
    refine ⟨y, y1, y2, ?_⟩
    rw [y3, ((slice_perm ht ha).map _).sum_eq, hp, List.map_map, list_sum_real]
    dsimp only [Function.comp]
    rw [← sum_all_strided k htz.1]
    rfl
end

theorem sumSliceCuda_gives {m n k : Nat} (hm : 0 < m ∧ m < 2^31) (hn : 0 < n ∧ n ≤ 8 * 65535) (hk : 0 < k ∧ k < 2^31) {alpha beta : ℝ} {src dst dst' : Buf ℝ}
    (h : sumSliceKernel m n k alpha src beta dst = .ok dst') : ∃ g, sumSliceCuda m n k alpha beta = .ok g ∧ g.Gives [src] dst dst' := by
  unfold sumSliceKernel at h
  unfold sumSliceCuda
  simp only [show ((16 : Int)) = ((16 : Nat) : Int) from rfl, dimOf_eq hk.2]
  refine ⟨_, sliceLaunch_eq hm hn, ?_⟩
  have hread : ∀ i1 i0 j, i1 < n → i0 < m → j < k → src.rd (i1*(m*k) + i0 + j*m) = .ok (src.val (i1*(m*k) + i0 + j*m)) := by
    intro i1 i0 j h1 h0 hj
    obtain ⟨a, b, hab⟩ := forN2_reads h i1 h1
    obtain ⟨a, b, hab⟩ := forN2_reads hab i0 h0
    obtain ⟨p, hp, _⟩ := M.bind_eq_ok.1 hab
    obtain ⟨x, hx⟩ := forN_reads hp j hj
    exact Buf.rd_val hx
  exact sliceSum_gives (k := k) hm hn ⟨dimOf_pos hk.1 (by omega), Nat.min_le_right _ _⟩ (fun i1 i0 j => ld 1 (i1*(m*k) + i0 + j*m)) _ (fun i1 i0 j => src.val (i1*(m*k) + i0 + j*m))
    (fun g i1 i0 j h1 h0 hj => reads_ld (by rw [mem_rd_src]; exact hread i1 i0 j h1 h0 hj)) (fun i1 i0 p h1 h0 hp => kahan_ok hp (hread i1 i0 · h1 h0)) h

theorem sumprodSliceCuda_gives {m n k : Nat} (hm : 0 < m ∧ m < 2^31) (hn : 0 < n ∧ n ≤ 8 * 65535) {alpha beta : ℝ} {src1 src2 dst dst' : Buf ℝ}
    (h : sumprodSliceKernel m n k alpha src1 src2 beta dst = .ok dst') : ∃ g, sumprodSliceCuda m n k alpha beta = .ok g ∧ g.Gives [src1, src2] dst dst' := by
  unfold sumprodSliceKernel at h
  unfold sumprodSliceCuda
  refine ⟨_, sliceLaunch_eq hm hn, ?_⟩
  have hread : ∀ i1 i0 j, i1 < n → i0 < m → j < k → src1.rd (i1*(m*k) + i0 + j*m) = .ok (src1.val (i1*(m*k) + i0 + j*m)) ∧ src2.rd (i1*(m*k) + i0 + j*m) = .ok (src2.val (i1*(m*k) + i0 + j*m)) := by
    intro i1 i0 j h1 h0 hj
    obtain ⟨a, b, hab⟩ := forN2_reads h i1 h1
    obtain ⟨a, b, hab⟩ := forN2_reads hab i0 h0
    obtain ⟨p, hp, _⟩ := M.bind_eq_ok.1 hab
    obtain ⟨a, b, hab⟩ := forN2_reads hp j hj
    obtain ⟨x, hx, hab⟩ := M.bind_eq_ok.1 hab
    obtain ⟨y, hy, hab⟩ := M.bind_eq_ok.1 hab
    exact ⟨Buf.rd_val hx, Buf.rd_val hy⟩
  refine sliceSum_gives (k := k) hm hn ⟨by omega, le_refl 16⟩ (fun i1 i0 j => ld 1 (i1*(m*k) + i0 + j*m) >>= fun x => ld 2 (i1*(m*k) + i0 + j*m) >>= fun y => pure (x * y)) _
    (fun i1 i0 j => src1.val (i1*(m*k) + i0 + j*m) * src2.val (i1*(m*k) + i0 + j*m))
    (fun g i1 i0 j h1 h0 hj => reads_bind (reads_ld (by rw [mem_rd_src]; exact (hread i1 i0 j h1 h0 hj).1)) (reads_bind (reads_ld (by rw [mem_rd_src]; exact (hread i1 i0 j h1 h0 hj).2)) (reads_pure _ _)))
    (fun i1 i0 p h1 h0 hp => ?_) h
  refine kahan_ok (k := k) (rd := fun j => src1.rd (i1*(m*k) + i0 + j*m) >>= fun u => src2.rd (i1*(m*k) + i0 + j*m) >>= fun w => .ok (u * w)) ?_ fun j hj => ?_
  · rw [← hp]
    congr 1
    funext j p
    cases src1.rd (i1*(m*k) + i0 + j*m) with
    | error e => rfl
    | ok u => cases src2.rd (i1*(m*k) + i0 + j*m) <;> rfl
  · rw [(hread i1 i0 j h1 h0 hj).1, M.bind_ok, (hread i1 i0 j h1 h0 hj).2, M.bind_ok]

end NNTile
