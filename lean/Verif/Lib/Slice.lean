import Verif.Model.Slice
import Verif.Lib.Check
import Verif.Lib.ActsOn
/-! Lemmas about broadcasts of a slice. -/
namespace NNTile
variable {α : Type}

/-- Three nested loops over a buffer viewed as `m × k × n`, the middle dimension innermost. -/
theorem forN3_acts {β : Type} {n m k : Nat} {pre : Nat → Nat → M β} {val : Nat → Nat → β} {body : β → Nat → Nat → Nat → Buf α → M (Buf α)}
    {h : Nat → Nat → Nat → CellTr α}
    (hpre : ∀ i2 i1, i2 < n → i1 < m → pre i2 i1 = .ok (val i2 i1))
    (hbody : ∀ i2 i1 i0, i2 < n → i1 < m → i0 < k → i1 + m * (i0 + k * i2) < m * (k * n) →
      ∀ g : Nat → CellTr α, g (i1 + m * (i0 + k * i2)) = h i1 i0 i2 →
      ActsOn (m * (k * n)) (body (val i2 i1) i2 i1 i0) (fun c => c = i1 + m * (i0 + k * i2)) g) :
    ActsOn (m * (k * n)) (fun dst => forN n (fun i2 dst => forN m (fun i1 dst => pre i2 i1 >>= fun x => forN k (body x i2 i1) dst) dst) dst)
      (fun c => c < m * (k * n)) (fun c => h (c % m) (c / m % k) (c / m / k)) := by
  have key := ActsOn.forN (α := α) (N := m * (k * n)) (n := n) (f := fun i2 dst => forN m (fun i1 dst => pre i2 i1 >>= fun x => forN k (body x i2 i1) dst) dst)
    (P := fun i2 c => ∃ i1, i1 < m ∧ ∃ i0, i0 < k ∧ c = i1 + m * (i0 + k * i2)) (g := fun c => h (c % m) (c / m % k) (c / m / k))
    (by
      intro i2 hi2
      apply ActsOn.forN (f := fun i1 dst => pre i2 i1 >>= fun x => forN k (body x i2 i1) dst)
        (P := fun i1 c => ∃ i0, i0 < k ∧ c = i1 + m * (i0 + k * i2))
      · intro i1 hi1
        apply ActsOn.pre (f := fun x b => forN k (body x i2 i1) b) (hpre i2 i1 hi2 hi1)
        apply ActsOn.forN (f := fun i0 => body (val i2 i1) i2 i1 i0) (P := fun i0 c => c = i1 + m * (i0 + k * i2))
        · intro i0 hi0
          apply hbody i2 i1 i0 hi2 hi1 hi0 (cell3_lt hi1 hi0 hi2)
          simp only [cell2_mod hi1, cell2_div hi1, cell2_mod hi0, cell2_div hi0]
        · rintro i j hij hj c rfl h'
          have := cell3_inj hi1 hi1 (by omega) hj h'
          omega
      · rintro i j hij hj c ⟨i0, h0, rfl⟩ ⟨j0, h0', h'⟩
        have := cell3_inj (by omega) hj h0 h0' h'
        omega)
    (by
      rintro i j hij hj c ⟨i1, h1, i0, h0, rfl⟩ ⟨j1, h1', j0, h0', h'⟩
      have := cell3_inj h1 h1' h0 h0' h'
      omega)
  refine key.congr ?_ (fun _ _ _ => rfl)
  intro c
  constructor
  · rintro ⟨i2, h2, i1, h1, i0, h0, rfl⟩
    exact cell3_lt h1 h0 h2
  · intro hc
    have hm : 0 < m := by rcases Nat.eq_zero_or_pos m with h | h; simp [h] at hc; exact h
    have hk : 0 < k := by rcases Nat.eq_zero_or_pos k with h | h; simp [h] at hc; exact h
    have h1 : c / m < k * n := Nat.div_lt_of_lt_mul hc
    refine ⟨c / m / k, Nat.div_lt_of_lt_mul h1, c % m, Nat.mod_lt _ hm, c / m % k, Nat.mod_lt _ hk, ?_⟩
    rw [Nat.mod_add_div, Nat.mod_add_div]

/-- The same for a loop that sets each cell to a known value, possibly looking at its old content. -/
theorem forN3_put {β : Type} {n m k : Nat} {pre : Nat → Nat → M β} {val : Nat → Nat → β} {body : β → Nat → Nat → Nat → Buf α → M (Buf α)}
    {b : Buf α} (hb : b.size = m * (k * n)) (v : Nat → Nat → Nat → α)
    (hpre : ∀ i2 i1, i2 < n → i1 < m → pre i2 i1 = .ok (val i2 i1))
    (hbody : ∀ i2 i1 i0, i2 < n → i1 < m → i0 < k → ∀ d : Buf α, i1 + m * (i0 + k * i2) < d.size →
      d.data (i1 + m * (i0 + k * i2)) = b.data (i1 + m * (i0 + k * i2)) →
      body (val i2 i1) i2 i1 i0 d = .ok (d.put (i1 + m * (i0 + k * i2)) (v i1 i0 i2))) :
    ∃ b', forN n (fun i2 dst => forN m (fun i1 dst => pre i2 i1 >>= fun x => forN k (body x i2 i1) dst) dst) b = .ok b' ∧
      b'.size = b.size ∧ ∀ i1 i0 i2, i1 < m → i0 < k → i2 < n → b'.data (i1 + m * (i0 + k * i2)) = some (v i1 i0 i2) := by
  classical
  have key := forN3_acts (α := α) (n := n) (m := m) (k := k) (pre := pre) (val := val) (body := body)
    (h := fun i1 i0 i2 o => if o = b.data (i1 + m * (i0 + k * i2)) then some (some (v i1 i0 i2)) else none) hpre (by
      intro i2 i1 i0 h2 h1 h0 hlt g hg
      apply ActsOn.step
      intro d c' hd
      simp only [hg] at hd
      by_cases he : d (i1 + m * (i0 + k * i2)) = b.data (i1 + m * (i0 + k * i2))
      · rw [if_pos he] at hd
        rw [hbody i2 i1 i0 h2 h1 h0 ⟨_, d⟩ hlt he, Buf.put]
        simp only [Option.some.injEq] at hd
        rw [hd]
      · rw [if_neg he] at hd
        cases hd)
  have hcell : ∀ c, c < m * (k * n) → c % m + m * (c / m % k + k * (c / m / k)) = c := by
    intro c _
    rw [Nat.mod_add_div, Nat.mod_add_div]
  obtain ⟨b', e, hsz, h1, -⟩ := key.run hb (by
    intro c hc
    simp only [hcell c hc, if_true]
    exact ⟨_, rfl⟩)
  refine ⟨b', e, by omega, ?_⟩
  intro i1 i0 i2 l1 l0 l2
  have := h1 _ (cell3_lt l1 l0 l2)
  simp only [cell2_mod l1, cell2_div l1, cell2_mod l0, cell2_div l0, if_true, Option.some.injEq] at this
  exact this.symm

/-- The position of the kernels, `i2*(m*k) + i1 + i0*m`. -/
theorem pos3 (i2 i1 i0 m k : Nat) : i2 * (m * k) + i1 + i0 * m = i1 + m * (i0 + k * i2) := by ring
theorem pos2 (i2 i1 m : Nat) : i2 * m + i1 = i1 + m * i2 := by ring


/-- Values of a slice broadcast kernel. -/
theorem addSlice_run [FP α] {m n k : Nat} {alpha beta : α} {src b : Buf α} {x : Nat → α} {y : Nat → α}
    (hb : b.size = m * (k * n)) (hs : src.size = m * n) (hx : ∀ j, j < m * n → src.data j = some (x j))
    (hy : FP.eqb beta 0 = false → ∀ j, j < m * (k * n) → b.data j = some (y j)) :
    ∃ b', addSliceKernel m n k alpha src beta b = .ok b' ∧ b'.size = b.size ∧ ∀ i1 i0 i2, i1 < m → i0 < k → i2 < n →
      b'.data (i1 + m * (i0 + k * i2)) = some (if FP.eqb beta 0 then alpha * x (i1 + m * i2)
        else beta * y (i1 + m * (i0 + k * i2)) + alpha * x (i1 + m * i2)) := by
  have hpre : ∀ i2 i1, i2 < n → i1 < m → src.rd (i2*m+i1) = .ok (x (i1 + m * i2)) := by
    intro i2 i1 h2 h1
    rw [pos2]
    exact Buf.rd_ok (hs ▸ cell2_lt h1 h2) (hx _ (cell2_lt h1 h2))
  unfold addSliceKernel
  cases hz : FP.eqb beta 0
  · simp only [Bool.false_eq_true, if_false]
    refine forN3_put hb _ hpre ?_
    intro i2 i1 i0 h2 h1 h0 d hd he
    rw [pos3, Buf.rd_ok hd (he.trans (hy hz _ (cell3_lt h1 h0 h2))), M.bind_ok, Buf.wr_put hd]
  · simp only [if_true]
    refine forN3_put hb _ hpre ?_
    intro i2 i1 i0 h2 h1 h0 d hd he
    rw [pos3, Buf.wr_put hd]

theorem addSlice3_run [FP α] {m n k : Nat} {alpha beta : α} {src src2 b : Buf α} {x : Nat → α} {y : Nat → α}
    (hb : b.size = m * (k * n)) (hs : src.size = m * n) (hx : ∀ j, j < m * n → src.data j = some (x j))
    (hs2 : src2.size = m * (k * n)) (hy : FP.eqb beta 0 = false → ∀ j, j < m * (k * n) → src2.data j = some (y j)) :
    ∃ b', addSlice3Kernel m n k alpha src beta src2 b = .ok b' ∧ b'.size = b.size ∧ ∀ i1 i0 i2, i1 < m → i0 < k → i2 < n →
      b'.data (i1 + m * (i0 + k * i2)) = some (if FP.eqb beta 0 then alpha * x (i1 + m * i2)
        else beta * y (i1 + m * (i0 + k * i2)) + alpha * x (i1 + m * i2)) := by
  have hpre : ∀ i2 i1, i2 < n → i1 < m → src.rd (i2*m+i1) = .ok (x (i1 + m * i2)) := by
    intro i2 i1 h2 h1
    rw [pos2]
    exact Buf.rd_ok (hs ▸ cell2_lt h1 h2) (hx _ (cell2_lt h1 h2))
  unfold addSlice3Kernel
  cases hz : FP.eqb beta 0
  · simp only [Bool.false_eq_true, if_false]
    refine forN3_put hb _ hpre ?_
    intro i2 i1 i0 h2 h1 h0 d hd he
    rw [pos3, Buf.rd_ok (hs2 ▸ cell3_lt h1 h0 h2) (hy hz _ (cell3_lt h1 h0 h2)), M.bind_ok, Buf.wr_put hd]
  · simp only [if_true]
    refine forN3_put hb _ hpre ?_
    intro i2 i1 i0 h2 h1 h0 d hd he
    rw [pos3, Buf.wr_put hd]

theorem prodSlice_run [FP α] {m n k : Nat} {alpha : α} {src b : Buf α} {x : Nat → α} {y : Nat → α}
    (hb : b.size = m * (k * n)) (hs : src.size = m * n) (hx : ∀ j, j < m * n → src.data j = some (x j))
    (hy : ∀ j, j < m * (k * n) → b.data j = some (y j)) :
    ∃ b', prodSliceKernel m n k alpha src b = .ok b' ∧ b'.size = b.size ∧ ∀ i1 i0 i2, i1 < m → i0 < k → i2 < n →
      b'.data (i1 + m * (i0 + k * i2)) = some (y (i1 + m * (i0 + k * i2)) * (alpha * x (i1 + m * i2))) := by
  have hpre : ∀ i2 i1, i2 < n → i1 < m → src.rd (i2*m+i1) = .ok (x (i1 + m * i2)) := by
    intro i2 i1 h2 h1
    rw [pos2]
    exact Buf.rd_ok (hs ▸ cell2_lt h1 h2) (hx _ (cell2_lt h1 h2))
  unfold prodSliceKernel
  refine forN3_put hb _ hpre ?_
  intro i2 i1 i0 h2 h1 h0 d hd he
  rw [pos3, Buf.rd_ok hd (he.trans (hy _ (cell3_lt h1 h0 h2))), M.bind_ok, Buf.wr_put hd]

/-! ### The tile loops -/

namespace Tensor.SliceOf
variable {src dst : Tensor} {a : Nat} (h : src.SliceOf dst a) (hd : dst.WF)
include h hd

theorem grid : src.grid = dst.grid.eraseIdx a := by
  rw [Tensor.grid, h.shape, h.basetile, gridOf_erase a hd.2.2]; rfl

theorem tile_inBox {t : List Nat} (ht : InBox dst.grid t) : InBox src.grid (t.eraseIdx a) := by
  rw [h.grid hd]; exact ht.erase a

theorem tshape {t : List Nat} (ht : InBox dst.grid t) : src.tshape (t.eraseIdx a) = (dst.tshape t).eraseIdx a := by
  rw [Tensor.tshape, h.shape, h.basetile, tileShape_erase a hd.2.2 (by rw [ht.length, hd.grid_length])]; rfl

theorem axis_grid : a < dst.grid.length := by rw [hd.grid_length]; exact h.axis

theorem glob {t l : List Nat} (ht : InBox dst.grid t) (hl : InBox (dst.tshape t) l) :
    globIdx src.basetile (t.eraseIdx a) (l.eraseIdx a) = (globIdx dst.basetile t l).eraseIdx a := by
  rw [h.basetile, globIdx_erase a (by rw [ht.length, hd.grid_length, hd.2.2]) (by rw [hl.length, hd.tshape_length ht, hd.2.2])]

/-- Inserting `j` at `axis` is the inverse of erasing. -/
theorem insert_inBox {u : List Nat} {j : Nat} (hu : InBox src.grid u) (hj : j < dst.grid.getD a 0) : InBox dst.grid (u.insertIdx a j) := by
  rw [h.grid hd] at hu
  exact hu.insert (h.axis_grid hd) hj

/-- The value in the tile of `src` that belongs to position `l` of tile `t` of `dst`. -/
theorem get {α : Type} {t l : List Nat} (ht : InBox dst.grid t) (hl : InBox (dst.tshape t) l) (hs : src.WF) (s : Store α) :
    (s (src.id, lin src.grid (t.eraseIdx a))).data (lin (src.tshape (t.eraseIdx a)) (l.eraseIdx a)) =
      src.get s ((globIdx dst.basetile t l).eraseIdx a) := by
  rw [← h.glob hd ht hl, hs.get_glob (h.tile_inBox hd ht) (by rw [h.tshape hd ht]; exact hl.erase a)]

end Tensor.SliceOf

/-- All cells of a tile in the three-dimensional view around `a`. -/
theorem view3 {S l : List Nat} {a : Nat} (ha : a < S.length) (hl : InBox S l) :
    ∃ i1 i0 i2, i1 < mOf S a ∧ i0 < kOf S a ∧ i2 < nOf S a ∧ lin S l = i1 + mOf S a * (i0 + kOf S a * i2) ∧
      lin (S.eraseIdx a) (l.eraseIdx a) = i1 + mOf S a * i2 ∧ i0 = l.getD a 0 :=
  ⟨_, _, _, lin_lt (hl.take a), hl.getD ha, lin_lt (hl.drop (a+1)), lin_axis ha hl.length, lin_erase hl.length, rfl⟩

theorem size3 {S : List Nat} {a : Nat} (ha : a < S.length) : S.prod = mOf S a * (kOf S a * nOf S a) := prod_axis ha

/-- The tasks of `sliceLoop`. -/
theorem sliceLoop_ok {src dst : Tensor} {a : Nat} (hd : dst.WF) (h : src.SliceOf dst a)
    {submit : List Nat → Handle → Handle → Nat → M (Task1 α)} (task : List Nat → Task1 α)
    (hsub : ∀ t, InBox dst.grid t → submit (dst.tshape t) (src.id, lin src.grid (t.eraseIdx a)) (dst.id, lin dst.grid t) (lin dst.grid t) =
      .ok (task t)) :
    sliceLoop src dst a submit = .ok ((List.range src.ntiles).flatMap (fun i => (List.range (dst.grid.getD a 0)).flatMap
      (fun j => [task ((src.tindex i).insertIdx a j)]))) := by
  have hax := h.axis_grid hd
  apply forTasks_ok
  intro i hi
  rw [Tensor.handleL_ok hi, M.bind_ok, vget_ok hax, M.bind_ok]
  apply forTasks_ok
  intro j hj
  have hin' := h.insert_inBox hd (src.tindex_inBox i) hj
  have e := hsub _ hin'
  rw [erase_insert, Tensor.lin_tindex hi] at e
  simp only [Tensor.handleAt_ok hin', Tensor.tshapeAt_ok hin', M.bind_ok, e]

/-- Tasks of `sliceLoop`: exactly one per tile of `dst`. -/
theorem sliceLoop_run {src dst : Tensor} {a : Nat} {s : Store α} (hd : dst.Ready s) (h : src.SliceOf dst a)
    {submit : List Nat → Handle → Handle → Nat → M (Task1 α)} (task : List Nat → Task1 α)
    (hsub : ∀ t, InBox dst.grid t → submit (dst.tshape t) (src.id, lin src.grid (t.eraseIdx a)) (dst.id, lin dst.grid t) (lin dst.grid t) =
      .ok (task t) ∧ (task t).out = (dst.id, lin dst.grid t) ∧ ∀ r ∈ (task t).reads, r.1 ≠ dst.id)
    (f : List Nat → α)
    (hfn : ∀ t, InBox dst.grid t → ∃ b', (task t).fn ((task t).reads.map s) ((task t).inp (s (dst.id, lin dst.grid t))) = .ok b' ∧
      b'.size = (s (dst.id, lin dst.grid t)).size ∧
      ∀ l, InBox (dst.tshape t) l → b'.data (lin (dst.tshape t) l) = some (f (globIdx dst.basetile t l))) :
    Computes (sliceLoop src dst a submit) s dst f := by
  have hax := h.axis_grid hd.1
  have hsl : ∀ i, (src.tindex i).length = src.grid.length := fun i => by simp [Tensor.tindex]
  have hgl : src.grid.length = dst.grid.length - 1 := by
    rw [h.grid hd.1, List.length_eraseIdx_of_lt hax]
  have hal : ∀ i, a ≤ (src.tindex i).length := fun i => by rw [hsl, hgl]; omega
  have hin : ∀ i j, j < dst.grid.getD a 0 → InBox dst.grid ((src.tindex i).insertIdx a j) :=
    fun i j hj => h.insert_inBox hd.1 (src.tindex_inBox i) hj
  have hloop : sliceLoop src dst a submit = .ok ((List.range src.ntiles).flatMap (fun i => (List.range (dst.grid.getD a 0)).flatMap
      (fun j => [task ((src.tindex i).insertIdx a j)]))) := sliceLoop_ok hd.1 h task (fun t ht => (hsub t ht).1)
  obtain ⟨s', h1, h2, h3, h4⟩ := run_tensor (ts := (List.range src.ntiles).flatMap (fun i => (List.range (dst.grid.getD a 0)).flatMap
      (fun j => [task ((src.tindex i).insertIdx a j)]))) hd.1 hd.2 (fun I => some (f I)) (by
      intro t ht
      simp only [List.mem_flatMap, List.mem_range, List.mem_singleton] at ht
      obtain ⟨i, hi, j, hj, rfl⟩ := ht
      exact ⟨_, lin_lt (hin i j hj), (hsub _ (hin i j hj)).2.1⟩) (by
      intro t ht
      simp only [List.mem_flatMap, List.mem_range, List.mem_singleton] at ht
      obtain ⟨i, hi, j, hj, rfl⟩ := ht
      exact (hsub _ (hin i j hj)).2.2) (by
      intro t ht
      have htl : a < t.length := by rw [ht.length]; exact hax
      have hte := h.tile_inBox hd.1 ht
      have hout : ∀ i j, j < dst.grid.getD a 0 → (task ((src.tindex i).insertIdx a j)).out = (dst.id, lin dst.grid t) →
          (src.tindex i).insertIdx a j = t := by
        intro i j hj he
        rw [(hsub _ (hin i j hj)).2.1] at he
        simp only [Prod.mk.injEq, true_and] at he
        exact lin_inj (hin i j hj) ht he
      have hti : (src.tindex (lin src.grid (t.eraseIdx a))).insertIdx a (t.getD a 0) = t := by
        rw [Tensor.tindex_lin hte, insert_erase htl]
      rw [filter_flatMap_unique (lin src.grid (t.eraseIdx a)) (show _ < src.ntiles from lin_lt hte)]
      · rw [filter_flatMap_unique (t.getD a 0) (ht.getD hax)]
        · simp only [hti, List.filter_cons, (hsub t ht).2.1, decide_true, if_true, List.filter_nil, foldBuf]
          obtain ⟨b', e, hz, hc⟩ := hfn t ht
          exact ⟨b', by rw [e]; rfl, hz, hc⟩
        · intro j hj hne u hu
          simp only [List.mem_singleton] at hu
          subst hu
          simp only [decide_eq_false_iff_not]
          intro he
          apply hne
          rw [← hout _ j hj he, getD_insert (hal _)]
      · intro i hi hne u hu
        simp only [List.mem_flatMap, List.mem_range, List.mem_singleton] at hu
        obtain ⟨j, hj, rfl⟩ := hu
        simp only [decide_eq_false_iff_not]
        intro he
        apply hne
        rw [← hout i j hj he, erase_insert, Tensor.lin_tindex hi])
  exact ⟨_, s', hloop, h1, h2, h3, hd.1, h4⟩

end NNTile
