import Verif.Lib.CudaSliceSum
/-! `sum_fiber`, `sumprod_fiber` on GPU. -/
namespace NNTile
open Finset

theorem sum_block {ty tz : Nat} (m n : Nat) (hy : 0 < ty) (hz : 0 < tz) (x : Nat → Nat → ℝ) :
    ∑ z ∈ range tz, ∑ y ∈ range ty, ∑ i1 ∈ (range n).filter (· % tz = z), ∑ i0 ∈ (range m).filter (· % ty = y), x i1 i0 = ∑ i1 ∈ range n, ∑ i0 ∈ range m, x i1 i0 := by
  rw [← sum_all_strided n hz]
  refine sum_congr rfl fun z _ => ?_
  rw [sum_comm]
  exact sum_congr rfl fun i1 _ => sum_all_strided m hy _

theorem list_sum_product (a b : Nat) (f : Nat × Nat → ℝ) : (((List.range a).product (List.range b)).map f).sum = ∑ i ∈ range a, ∑ j ∈ range b, f (i, j) := by
  have : ∀ l : List Nat, ((l.product (List.range b)).map f).sum = (l.map fun i => ∑ j ∈ range b, f (i, j)).sum := by
    intro l
    induction l with
    | nil => rfl
    | cons i l ih =>
      simp only [List.product, List.flatMap_cons, List.map_append, List.sum_append, List.map_cons, List.sum_cons, List.map_map] at ih ⊢
      rw [ih, list_sum_real]
      rfl
  rw [this, list_sum_real]

/-- A launch in which the threads with the same `threadIdx.x` of a block work for one output. -/
theorem fiberSum_gives {g : Launch ℝ} (hv : g.Valid) {tx ty tz gx N m n : Nat} (hty : 0 < ty) (htz : 0 < tz) (hgr : g.grid = ⟨gx, 1, 1⟩) (hth : g.threads = ⟨tx, ty, tz⟩)
    (hsh : g.shared = tx) (hN : N ≤ gx * tx) {srcs : List (Buf ℝ)} {alpha beta : ℝ} {dst dst' : Buf ℝ} (pre : Tid → PM ℝ ℝ) (x : Nat → Nat → Nat → ℝ)
    (hbody : ∀ t, g.Has t → g.body t = PM.prog (pre t >>= fun s => blockSum t.blk t.thr.x (t.thr.z = 0 ∧ t.thr.y = 0) s fun s =>
      if t.thr.x + t.blk.x * tx < N then storeSumCuda alpha beta (t.thr.x + t.blk.x * tx) s else pure ()))
    (hpre : ∀ t, g.Has t → (pre t).Reads (g.mem (taskBufs dst srcs))
      (∑ i1 ∈ (range n).filter (· % tz = t.thr.z), ∑ i0 ∈ (range m).filter (· % ty = t.thr.y), x (t.thr.x + t.blk.x * tx) i1 i0))
    (s1 : dst'.size = dst.size) (s2 : ∀ i, N ≤ i → dst'.data i = dst.data i)
    (s3 : ∀ i, i < N → ∃ y, i < dst.size ∧ (beta ≠ 0 → dst.rd i = .ok y) ∧ dst'.rd i = .ok (beta * y + alpha * ∑ i1 ∈ range n, ∑ i0 ∈ range m, x i i1 i0)) : g.Gives srcs dst dst' := by
  classical
  have hhas : ∀ {t : Tid}, g.Has t → t.blk.x < gx ∧ t.blk.y < 1 ∧ t.blk.z < 1 ∧ t.thr.x < tx ∧ t.thr.y < ty ∧ t.thr.z < tz := by
    intro t ht
    unfold Launch.Has at ht
    rw [hgr, hth] at ht
    exact ht
  have hmk : ∀ {t : Tid}, t.blk.x < gx ∧ t.blk.y < 1 ∧ t.blk.z < 1 ∧ t.thr.x < tx ∧ t.thr.y < ty ∧ t.thr.z < tz → g.Has t := by
    intro t ht
    unfold Launch.Has
    rw [hgr, hth]
    exact ht
  refine blockSum_gives hv (act := fun _ => True) (slot := fun t => t.thr.x) (leader := fun t => t.thr.z = 0 ∧ t.thr.y = 0) (wr := fun t => t.thr.x + t.blk.x * tx < N)
    (out := fun t => t.thr.x + t.blk.x * tx) (pre := pre)
    (v := fun t => ∑ i1 ∈ (range n).filter (· % tz = t.thr.z), ∑ i0 ∈ (range m).filter (· % ty = t.thr.y), x (t.thr.x + t.blk.x * tx) i1 i0) (alpha := alpha) (beta := beta)
    ?_ ?_ ?_ ?_ ?_ ?_ s1 ?_ ?_
  · intro t ht
    rw [if_pos trivial]
    exact hbody t ht
  · intro t ht _
    exact hpre t ht
  · intro t ht _
    rw [hsh]
    exact (hhas ht).2.2.2.1
  · intro t u _ _ hl _ _ hul hb hs
    obtain ⟨b, ⟨x, y, z⟩⟩ := t
    obtain ⟨b', ⟨x', y', z'⟩⟩ := u
    simp only at *
    obtain ⟨rfl, rfl⟩ := hl
    obtain ⟨rfl, rfl⟩ := hul
    subst hb hs
    rfl
  · intro t ht _
    have h := hhas ht
    exact ⟨⟨t.blk, ⟨t.thr.x, 0, 0⟩⟩, hmk ⟨h.1, h.2.1, h.2.2.1, h.2.2.2.1, hty, htz⟩, trivial, ⟨rfl, rfl⟩, rfl, rfl⟩
  · intro t u ht _ hl _ hu _ hul _ ho
    have h := hhas ht
    have h' := hhas hu
    have e1 := tid_eta (y := t.blk.x) h.2.2.2.1
    have e2 := tid_eta (y := u.blk.x) h'.2.2.2.1
    rw [ho] at e1
    have a1 := e1.1.symm.trans e2.1
    have a2 := e1.2.symm.trans e2.2
    obtain ⟨⟨bx, bY, bz⟩, ⟨x, y, z⟩⟩ := t
    obtain ⟨⟨bx', bY', bz'⟩, ⟨x', y', z'⟩⟩ := u
    simp only at *
    have : bY = bY' := by omega
    have : bz = bz' := by omega
    obtain ⟨rfl, rfl⟩ := hl
    obtain ⟨rfl, rfl⟩ := hul
    subst_vars
    rfl
  · intro i hi
    refine s2 i ?_
    by_contra hlt
    have hlt : i < N := by omega
    have htx : 0 < tx := by
      rcases Nat.eq_zero_or_pos tx with h | h
      · subst h; omega
      · exact h
    have e : i % tx + i / tx * tx = i := by rw [Nat.mul_comm]; exact Nat.mod_add_div _ _
    refine hi ⟨⟨i / tx, 0, 0⟩, ⟨i % tx, 0, 0⟩⟩ (hmk ⟨?_, Nat.one_pos, Nat.one_pos, Nat.mod_lt _ htx, hty, htz⟩) trivial ⟨rfl, rfl⟩ ?_ e
    · exact (Nat.div_lt_iff_lt_mul htx).2 (by omega)
    · simp only [e]; exact hlt
  · intro t ht _ hl hw
    obtain ⟨y, y1, y2, y3⟩ := s3 _ hw
    refine ⟨y, y1, y2, ?_⟩
    have hperm : ((g.blockL (fun _ => True) t.blk).filter fun u => decide (u.thr.x = t.thr.x)).Perm (((List.range tz).product (List.range ty)).map fun p => ⟨t.blk, ⟨t.thr.x, p.2, p.1⟩⟩) := by
      refine (List.perm_ext_iff_of_nodup (Launch.blockL_nodup.filter _) ((List.Nodup.product List.nodup_range List.nodup_range).map fun a b h => ?_)).2 fun u => ?_
      · simp only [Tid.mk.injEq, Dim3.mk.injEq, true_and] at h
        exact Prod.ext h.2 h.1
      · simp only [List.mem_filter, Launch.mem_blockL, List.mem_map, decide_eq_true_eq]
        constructor
        · rintro ⟨⟨h1, h2, -⟩, h4⟩
          refine ⟨(u.thr.z, u.thr.y), mem_product_range.2 ⟨(hhas h2).2.2.2.2.2, (hhas h2).2.2.2.2.1⟩, ?_⟩
          rw [← h1, ← h4]
        · rintro ⟨p, hp, rfl⟩
          have h := hhas ht
          have hp := mem_product_range.1 hp
          exact ⟨⟨rfl, hmk ⟨h.1, h.2.1, h.2.2.1, h.2.2.2.1, hp.2, hp.1⟩, trivial⟩, rfl⟩
    rw [y3, (hperm.map _).sum_eq, List.map_map, ← sum_block m n hty htz]
    rw [list_sum_product]
    rfl

theorem forN_store {N : Nat} {acc : Nat → M (ℝ × ℝ)} {alpha beta : ℝ} {dst dst' : Buf ℝ} (x : Nat → ℝ) (h : forN N (fun i dst => acc i >>= fun p => storeSum alpha beta i p dst) dst = .ok dst')
    (hacc : ∀ i p, i < N → acc i = .ok p → p = (x i, 0)) :
    dst'.size = dst.size ∧ (∀ i, N ≤ i → dst'.data i = dst.data i) ∧ ∀ i, i < N → ∃ y, i < dst.size ∧ (beta ≠ 0 → dst.rd i = .ok y) ∧ dst'.rd i = .ok (beta * y + alpha * x i) := by
  rw [forN_items] at h
  obtain ⟨s1, s2, s3⟩ := items_store (o := fun i => i) List.nodup_range (fun i _ j _ e => e) h
  refine ⟨s1, fun i hi => s2 i fun j hj e => ?_, fun i hi => ?_⟩
  · have := List.mem_range.1 hj; omega
  · obtain ⟨p, p1, p2⟩ := s3 i (List.mem_range.2 hi)
    have := hacc i p hi p1
    subst this
    exact p2 rfl

theorem plain_ok {n m : Nat} {rd rd' : Nat → Nat → M ℝ} {x x' : Nat → Nat → ℝ} (h : ∀ i1 i0, i1 < n → i0 < m → rd i1 i0 = .ok (x i1 i0))
    (h' : ∀ i1 i0, i1 < n → i0 < m → rd' i1 i0 = .ok (x' i1 i0)) {p : ℝ × ℝ}
    (hp : forN n (fun i1 p => forN m (fun i0 p => rd i1 i0 >>= fun v => rd' i1 i0 >>= fun w => (.ok (p.1 + v * w, p.2) : M (ℝ × ℝ))) p) ((0 : ℝ), (0 : ℝ)) = .ok p) :
    p = (∑ i1 ∈ range n, ∑ i0 ∈ range m, x i1 i0 * x' i1 i0, 0) := by
  rw [plain_sum2 h h'] at hp
  cases hp
  rfl

theorem strided_lt {z k tz q : Nat} (hz : z < tz) (hq : q < strideCount z k tz) : z + q * tz < k :=
  ((mem_strided (n := k) hz (i := z + q*tz)).1 (List.mem_map.2 ⟨q, List.mem_range.2 hq, rfl⟩)).1

/-- What a thread reads. -/
theorem reads_fiber {M0 : Mem ℝ} {m n ty tz y z : Nat} (hy : y < ty) (hz : z < tz) {f : Nat → Nat → PM ℝ ℝ} {x : Nat → Nat → ℝ}
    (h : ∀ i1 i0, i1 < n → i0 < m → (f i1 i0).Reads M0 (x i1 i0)) :
    (forP (strideCount z n tz) (fun q sum => forP (strideCount y m ty) (fun r sum => f (z + q*tz) (y + r*ty) >>= fun v => pure (sum + v)) sum) (0 : ℝ)).Reads M0
      (∑ i1 ∈ (range n).filter (· % tz = z), ∑ i0 ∈ (range m).filter (· % ty = y), x i1 i0) := by
  have := reads_forP (m := M0) (f := fun q sum => forP (strideCount y m ty) (fun r sum => f (z + q*tz) (y + r*ty) >>= fun v => pure (sum + v)) sum)
    (g := fun q sum => foldP (strideCount y m ty) (fun r sum => sum + x (z + q*tz) (y + r*ty)) sum) (strideCount z n tz) (fun q hq s =>
      reads_forP (g := fun r sum => sum + x (z + q*tz) (y + r*ty)) _ (fun r hr s => reads_bind (h _ _ (strided_lt hz hq) (strided_lt hy hr)) (reads_pure _ _)) s) (0 : ℝ)
  rw [foldP_add2, zero_add] at this
  have e : ∀ i, ∑ q ∈ range (strideCount y m ty), x i (y + q * ty) = ∑ i0 ∈ (range m).filter (· % ty = y), x i i0 := fun i => sum_strided hy _
  simp only [e] at this
  rw [sum_strided hz (fun i => ∑ i0 ∈ (range m).filter (· % ty = y), x i i0)] at this
  exact this

section
variable {m n k batch : Nat} {alpha beta : ℝ}

theorem sumFiberCuda_grid (hk : k * batch < 2^31) : (sumFiberCuda m n k batch alpha beta).grid = ⟨k * batch, 1, 1⟩ := by
  simp only [sumFiberCuda]
  rw [uint32_eq (by omega)]

theorem sumFiberCuda_threads (hm : m < 2^31) (hn : n < 2^31) : (sumFiberCuda m n k batch alpha beta).threads = ⟨1, dimOf m 32, dimOf n 32⟩ := by
  simp only [sumFiberCuda]
  simp only [show ((32 : Int)) = ((32 : Nat) : Int) from rfl, dimOf_eq hm, dimOf_eq hn]

theorem sumFiberCuda_valid (hm : 0 < m ∧ m < 2^31) (hn : 0 < n ∧ n < 2^31) (hk : 0 < k * batch ∧ k * batch < 2^31) : (sumFiberCuda m n k batch alpha beta).Valid := by
  have hy : 0 < dimOf m 32 := dimOf_pos hm.1 (by omega)
  have hz : 0 < dimOf n 32 := dimOf_pos hn.1 (by omega)
  have c1 : dimOf m 32 ≤ 32 := Nat.min_le_right _ _
  have c2 : dimOf n 32 ≤ 32 := Nat.min_le_right _ _
  unfold Launch.Valid
  rw [sumFiberCuda_grid hk.2, sumFiberCuda_threads hm.2 hn.2]
  have : dimOf m 32 * dimOf n 32 ≤ 32 * 32 := Nat.mul_le_mul c1 c2
  dsimp only
  rw [Nat.one_mul]
  generalize dimOf m 32 = a at *
  generalize dimOf n 32 = b at *
  exact ⟨hk.1, hk.2, by omega, by omega, by omega, by omega, by omega, by omega, by omega, by omega, by omega, by omega, by omega⟩

theorem sumFiberCuda_body {ty tz : Nat} (hy : uint32 (min (int32 m) 32) = ty) (hz : uint32 (min (int32 n) 32) = tz) {t : Tid} {i : Nat} (hi : gidIndex t.thr.x t.blk.x 1 = i) (hb : i / k < batch) :
    (sumFiberCuda m n k batch alpha beta).body t = PM.prog (forP (strideCount t.thr.z n tz) (fun q sum => forP (strideCount t.thr.y m ty) (fun r sum =>
        ld 1 (((t.thr.z + q * tz + i / k * n)*k + i % k)*m + (t.thr.y + r * ty)) >>= fun v => pure (sum + v)) sum) (0 : ℝ) >>= fun s =>
      blockSum t.blk t.thr.x (t.thr.z = 0 ∧ t.thr.y = 0) s (storeSumCuda alpha beta i)) := by
  subst hy hz hi
  exact if_pos hb

theorem sumprodFiberCuda_body {ty tz : Nat} (hy : uint32 (min (int32 m) 32) = ty) (hz : uint32 (min (int32 n) 32) = tz) {t : Tid} {i : Nat} (hi : gidIndex t.thr.x t.blk.x 2 = i) :
    (sumprodFiberCuda m n k alpha beta).body t = PM.prog ((if i < k then
      forP (strideCount t.thr.z n tz) (fun q sum => forP (strideCount t.thr.y m ty) (fun r sum =>
        ld 1 (((t.thr.z + q * tz)*k + i)*m + (t.thr.y + r * ty)) >>= fun x =>
        ld 2 (((t.thr.z + q * tz)*k + i)*m + (t.thr.y + r * ty)) >>= fun y => pure (sum + x * y)) sum) (0 : ℝ)
      else pure 0) >>= fun s =>
      blockSum t.blk t.thr.x (t.thr.z = 0 ∧ t.thr.y = 0) s fun s => if i < k then storeSumCuda alpha beta i s else pure ()) := by
  subst hy hz hi
  unfold sumprodFiberCuda
  dsimp only
  by_cases h : gidIndex t.thr.x t.blk.x 2 < k
  · simp only [if_pos h]
  · simp only [if_neg h]

theorem sumprodFiberCuda_grid (hk : k < 2^31) : (sumprodFiberCuda m n k alpha beta).grid = ⟨(k + 2 - 1) / 2, 1, 1⟩ := by
  simp only [sumprodFiberCuda]
  rw [uint32_eq (by omega)]

theorem sumprodFiberCuda_threads (hm : m < 2^31) (hn : n < 2^31) : (sumprodFiberCuda m n k alpha beta).threads = ⟨2, dimOf m 32, dimOf n 32⟩ := by
  simp only [sumprodFiberCuda]
  simp only [show ((32 : Int)) = ((32 : Nat) : Int) from rfl, dimOf_eq hm, dimOf_eq hn]

theorem sumprodFiberCuda_valid (hm : 0 < m ∧ m < 2^31) (hn : 0 < n ∧ n < 2^31) (hmn : min m 32 * min n 32 ≤ 512) (hk : 0 < k ∧ k < 2^31) : (sumprodFiberCuda m n k alpha beta).Valid := by
  have hy : 0 < dimOf m 32 := dimOf_pos hm.1 (by omega)
  have hz : 0 < dimOf n 32 := dimOf_pos hn.1 (by omega)
  have c1 : dimOf m 32 ≤ 32 := Nat.min_le_right _ _
  have c2 : dimOf n 32 ≤ 32 := Nat.min_le_right _ _
  unfold Launch.Valid
  rw [sumprodFiberCuda_grid hk.2, sumprodFiberCuda_threads hm.2 hn.2]
  have : dimOf m 32 * dimOf n 32 ≤ 512 := hmn
  dsimp only
  rw [Nat.mul_assoc]
  generalize dimOf m 32 = a at *
  generalize dimOf n 32 = b at *
  exact ⟨by omega, by omega, by omega, by omega, by omega, by omega, by omega, by omega, by omega, by omega, by omega, by omega, by omega⟩
end

theorem sumFiberCuda_gives {m n k batch : Nat} (hm : 0 < m ∧ m < 2^31) (hn : 0 < n ∧ n < 2^31) (hk : 0 < k * batch ∧ k * batch < 2^31) {alpha beta : ℝ} {src dst dst' : Buf ℝ}
    (h : sumFiberKernel m n k batch alpha src beta dst = .ok dst') : (sumFiberCuda m n k batch alpha beta).Gives [src] dst dst' := by
  have hk0 : 0 < k := Nat.pos_of_mul_pos_right hk.1
  have hread : ∀ i i1 i0, i < k * batch → i1 < n → i0 < m → src.rd (((i1 + i / k * n)*k + i % k)*m + i0) = .ok (src.val (((i1 + i / k * n)*k + i % k)*m + i0)) := by
    intro i i1 i0 hi h1 h0
    unfold sumFiberKernel at h
    obtain ⟨a, b, hab⟩ := forN2_reads h (i / k) ((Nat.div_lt_iff_lt_mul hk0).2 (by rw [Nat.mul_comm]; exact hi))
    obtain ⟨a, b, hab⟩ := forN2_reads hab (i % k) (Nat.mod_lt _ hk0)
    obtain ⟨p, hp, _⟩ := M.bind_eq_ok.1 hab
    obtain ⟨a, b, hab⟩ := forN2_reads hp i1 h1
    obtain ⟨x, hx⟩ := forN_reads hab i0 h0
    exact Buf.rd_val hx
  unfold sumFiberKernel at h
  rw [forN2_items (fun b i2 dst => (forN n (fun i1 p => forN m (fun i0 p => src.rd (((i1 + b*n)*k + i2)*m + i0) >>= fun x => (.ok (kahan x p) : M (ℝ × ℝ))) p) ((0 : ℝ), (0 : ℝ)))
      >>= fun p => storeSum alpha beta (i2 + b*k) p dst)] at h
  obtain ⟨s1, s2, s3⟩ := items_store (o := fun p : Nat × Nat => p.2 + p.1*k) (List.Nodup.product List.nodup_range List.nodup_range) (fun i hi j hj e => by
      have hi := mem_product_range.1 hi
      have hj := mem_product_range.1 hj
      have e1 := tid_eta (y := i.1) hi.2
      have e2 := tid_eta (y := j.1) hj.2
      rw [e] at e1
      exact Prod.ext (e1.1.symm.trans e2.1) (e1.2.symm.trans e2.2)) h
  have hy : 0 < dimOf m 32 := dimOf_pos hm.1 (by omega)
  have hz : 0 < dimOf n 32 := dimOf_pos hn.1 (by omega)
  have c1 : dimOf m 32 ≤ 32 := Nat.min_le_right _ _
  have c2 : dimOf n 32 ≤ 32 := Nat.min_le_right _ _
  have hgr := sumFiberCuda_grid (m := m) (n := n) (alpha := alpha) (beta := beta) hk.2
  have hth := sumFiberCuda_threads (k := k) (batch := batch) (alpha := alpha) (beta := beta) hm.2 hn.2
  have hv := sumFiberCuda_valid (alpha := alpha) (beta := beta) hm hn hk
  refine fiberSum_gives (alpha := alpha) (beta := beta) (m := m) (n := n) (N := k * batch) hv hy hz hgr hth rfl (by omega)
    (fun t => forP (strideCount t.thr.z n (dimOf n 32)) (fun q sum => forP (strideCount t.thr.y m (dimOf m 32)) (fun r sum =>
      ld 1 (((t.thr.z + q * dimOf n 32 + (t.thr.x + t.blk.x * 1) / k * n)*k + (t.thr.x + t.blk.x * 1) % k)*m + (t.thr.y + r * dimOf m 32)) >>= fun v => pure (sum + v)) sum) (0 : ℝ))
    (fun i i1 i0 => src.val (((i1 + i / k * n)*k + i % k)*m + i0)) ?_ ?_ s1 ?_ ?_
  · intro t ht
    unfold Launch.Has at ht
    rw [hgr, hth] at ht
    obtain ⟨t1, t2, t3, t4, t5, t6⟩ := ht
    simp only at t1 t4
    have hi : t.thr.x + t.blk.x * 1 < k * batch := by omega
    have hb : (t.thr.x + t.blk.x * 1) / k < batch := (Nat.div_lt_iff_lt_mul hk0).2 (by rw [Nat.mul_comm batch]; exact hi)
    rw [sumFiberCuda_body (dimOf_eq hm.2) (dimOf_eq hn.2) (gidIndex_eq (by omega)) hb]
    simp only [if_pos hi]
  · intro t ht
    unfold Launch.Has at ht
    rw [hgr, hth] at ht
    obtain ⟨t1, t2, t3, t4, t5, t6⟩ := ht
    simp only at t1 t4 t5 t6
    have hi : t.thr.x + t.blk.x * 1 < k * batch := by omega
    exact reads_fiber (f := fun i1 i0 => ld 1 (((i1 + (t.thr.x + t.blk.x * 1) / k * n)*k + (t.thr.x + t.blk.x * 1) % k)*m + i0)) t5 t6 fun i1 i0 h1 h0 => reads_ld (by rw [mem_rd_src]; exact hread _ i1 i0 hi h1 h0)
  · intro i hi
    refine s2 i fun p hp e => ?_
    have hp := mem_product_range.1 hp
    have : (p.1 + 1) * k ≤ batch * k := Nat.mul_le_mul_right _ hp.1
    rw [Nat.add_mul, Nat.mul_comm batch] at this
    have := hp.2
    omega
  · intro i hi
    obtain ⟨p, p1, p2⟩ := s3 (i / k, i % k) (mem_product_range.2 ⟨(Nat.div_lt_iff_lt_mul hk0).2 (by rw [Nat.mul_comm]; exact hi), Nat.mod_lt _ hk0⟩)
    have hp : p = (∑ i1 ∈ range n, ∑ i0 ∈ range m, src.val (((i1 + i / k * n)*k + i % k)*m + i0), 0) := by
      simp only at p1
      rw [kahan_sum2 (fun i1 i0 h1 h0 => hread i i1 i0 hi h1 h0)] at p1
      cases p1
      rfl
    have e : i % k + i / k * k = i := by rw [Nat.mul_comm]; exact Nat.mod_add_div _ _
    simp only [e] at p2
    obtain ⟨y, y1, y2, y3⟩ := p2 (by rw [hp])
    exact ⟨y, y1, y2, by rw [y3, hp]⟩

theorem sumprodFiberCuda_gives {m n k : Nat} (hm : 0 < m ∧ m < 2^31) (hn : 0 < n ∧ n < 2^31) (hmn : min m 32 * min n 32 ≤ 512) (hk : 0 < k ∧ k < 2^31) {alpha beta : ℝ} {src1 src2 dst dst' : Buf ℝ}
    (h : sumprodFiberKernel m n k alpha src1 src2 beta dst = .ok dst') : (sumprodFiberCuda m n k alpha beta).Gives [src1, src2] dst dst' := by
  unfold sumprodFiberKernel at h
  have hread : ∀ i2 i1 i0, i2 < k → i1 < n → i0 < m → src1.rd ((i1*k + i2)*m + i0) = .ok (src1.val ((i1*k + i2)*m + i0)) ∧ src2.rd ((i1*k + i2)*m + i0) = .ok (src2.val ((i1*k + i2)*m + i0)) := by
    intro i2 i1 i0 h2 h1 h0
    obtain ⟨a, b, hab⟩ := forN2_reads h i2 h2
    obtain ⟨p, hp, _⟩ := M.bind_eq_ok.1 hab
    obtain ⟨a, b, hab⟩ := forN2_reads hp i1 h1
    obtain ⟨a, b, hab⟩ := forN2_reads hab i0 h0
    obtain ⟨x, hx, hab⟩ := M.bind_eq_ok.1 hab
    obtain ⟨y, hy, hab⟩ := M.bind_eq_ok.1 hab
    exact ⟨Buf.rd_val hx, Buf.rd_val hy⟩
  obtain ⟨s1, s2, s3⟩ := forN_store (fun i => ∑ i1 ∈ range n, ∑ i0 ∈ range m, src1.val ((i1*k + i)*m + i0) * src2.val ((i1*k + i)*m + i0)) h fun i p hi hp =>
    plain_ok (fun i1 i0 h1 h0 => (hread i i1 i0 hi h1 h0).1) (fun i1 i0 h1 h0 => (hread i i1 i0 hi h1 h0).2) hp
  have hy : 0 < dimOf m 32 := dimOf_pos hm.1 (by omega)
  have hz : 0 < dimOf n 32 := dimOf_pos hn.1 (by omega)
  have c1 : dimOf m 32 ≤ 32 := Nat.min_le_right _ _
  have c2 : dimOf n 32 ≤ 32 := Nat.min_le_right _ _
  have hgr := sumprodFiberCuda_grid (m := m) (n := n) (alpha := alpha) (beta := beta) hk.2
  have hth := sumprodFiberCuda_threads (k := k) (alpha := alpha) (beta := beta) hm.2 hn.2
  have hv := sumprodFiberCuda_valid (alpha := alpha) (beta := beta) hm hn hmn hk
  refine fiberSum_gives (alpha := alpha) (beta := beta) (m := m) (n := n) (N := k) hv hy hz hgr hth rfl (by omega)
    (fun t => if t.thr.x + t.blk.x * 2 < k then
      forP (strideCount t.thr.z n (dimOf n 32)) (fun q sum => forP (strideCount t.thr.y m (dimOf m 32)) (fun r sum =>
        ld 1 (((t.thr.z + q * dimOf n 32)*k + (t.thr.x + t.blk.x * 2))*m + (t.thr.y + r * dimOf m 32)) >>= fun x =>
        ld 2 (((t.thr.z + q * dimOf n 32)*k + (t.thr.x + t.blk.x * 2))*m + (t.thr.y + r * dimOf m 32)) >>= fun y => pure (sum + x * y)) sum) (0 : ℝ)
      else pure 0)
    (fun i i1 i0 => if i < k then src1.val ((i1*k + i)*m + i0) * src2.val ((i1*k + i)*m + i0) else 0) ?_ ?_ s1 s2 ?_
  · intro t ht
    unfold Launch.Has at ht
    rw [hgr, hth] at ht
    obtain ⟨t1, t2, t3, t4, t5, t6⟩ := ht
    simp only at t1 t4
    exact sumprodFiberCuda_body (dimOf_eq hm.2) (dimOf_eq hn.2) (gidIndex_eq (by omega))
  · intro t ht
    unfold Launch.Has at ht
    rw [hgr, hth] at ht
    obtain ⟨t1, t2, t3, t4, t5, t6⟩ := ht
    simp only at t1 t4 t5 t6
    by_cases hi : t.thr.x + t.blk.x * 2 < k
    · simp only [if_pos hi]
      exact reads_fiber (f := fun i1 i0 => ld 1 ((i1*k + (t.thr.x + t.blk.x * 2))*m + i0) >>= fun x => ld 2 ((i1*k + (t.thr.x + t.blk.x * 2))*m + i0) >>= fun y => pure (x * y)) t5 t6
        fun i1 i0 h1 h0 => reads_bind (reads_ld (by rw [mem_rd_src]; exact (hread _ i1 i0 hi h1 h0).1)) (reads_bind (reads_ld (by rw [mem_rd_src]; exact (hread _ i1 i0 hi h1 h0).2)) (reads_pure _ _))
    · simp only [if_neg hi, sum_const_zero]
      exact reads_pure _ _
  · intro i hi
    simp only [if_pos hi]
    exact s3 i hi

end NNTile
