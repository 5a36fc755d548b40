import Verif.Model.Flash
import Verif.Lib.GemmTensor
import Verif.Lib.MseTensor
import Verif.Lib.Softmax
import Verif.Lib.Reduce
import Verif.Lib.Proj
import Verif.Lib.Seq
/-! From the execution of a tensor operation to the executions of kernels on its tiles and back. -/
namespace NNTile
variable {α : Type}

/-- Converse of `runAll1_ok`. -/
theorem foldBuf_of_run {ts : List (Task1 α)} {s s' : Store α} (hfrozen : ∀ t ∈ ts, ∀ h ∈ t.reads, ∀ u ∈ ts, u.out ≠ h) (h : runAll1 ts s = .ok s') (k : Handle) :
    foldBuf s (ts.filter (fun t => t.out = k)) (s k) = .ok (s' k) := by
  induction ts generalizing s with
  | nil =>
    simp only [runAll1, List.map_nil, runAll, Except.ok.injEq] at h
    subst h
    rfl
  | cons t ts ih =>
    simp only [runAll1, List.map_cons, runAll] at h
    rw [M.bind_eq_ok] at h
    obtain ⟨s1, e1, e2⟩ := h
    have hal : t.out ∉ t.reads := fun h => hfrozen t (by simp) _ h t (by simp) rfl
    have hb : ∃ b', t.fn (t.reads.map s) (t.inp (s t.out)) = .ok b' := by
      rw [Task.exec, if_neg (by simp [Task1.toTask, Task.outs, hal])] at e1
      rw [M.bind_eq_ok] at e1
      obtain ⟨o, e3, -⟩ := e1
      simp only [Task1.toTask, List.map_cons, List.map_nil, view_eq] at e3
      rw [M.bind_eq_ok] at e3
      obtain ⟨b', e4, -⟩ := e3
      exact ⟨b', e4⟩
    obtain ⟨b', hb'⟩ := hb
    rw [Task1.exec_ok t s b' hal hb'] at e1
    cases e1
    have := ih (fun u hu k hk v hv => hfrozen u (by simp [hu]) k hk v (by simp [hv])) e2
    have hcongr : ∀ b, foldBuf (fun k => if k = t.out then b' else s k) (ts.filter (fun t => t.out = k)) b
        = foldBuf s (ts.filter (fun t => t.out = k)) b := by
      intro b
      apply foldBuf_congr
      intro u hu r hr
      have hu' : u ∈ ts := (List.mem_filter.1 hu).1
      have : t.out ≠ r := hfrozen u (by simp [hu']) r hr t (by simp)
      rw [if_neg (fun h => this h.symm)]
    rw [hcongr] at this
    by_cases hk : k = t.out
    · subst hk
      rw [if_pos rfl] at this
      simp only [List.filter_cons, decide_true, if_true, foldBuf, hb']
      exact this
    · rw [if_neg hk] at this
      rw [List.filter_cons, if_neg (by simpa using fun h : t.out = k => hk h.symm)]
      exact this

/-- The operation writes only tiles of `dst` and reads only tiles of other tensors; the tasks for the tile `t` are `gt t`. -/
def ByTiles (async : M (List (Task1 α))) (dst : Tensor) (gt : List Nat → List (Task1 α)) : Prop :=
  ∃ ts, async = .ok ts ∧ (∀ u ∈ ts, (∃ t, InBox dst.grid t ∧ u.out = (dst.id, lin dst.grid t)) ∧ ∀ r ∈ u.reads, r.1 ≠ dst.id) ∧
    ∀ t, InBox dst.grid t → ts.filter (fun u => u.out = (dst.id, lin dst.grid t)) = gt t

theorem ByTiles.fold {async : M (List (Task1 α))} {dst : Tensor} {gt : List Nat → List (Task1 α)} (h : ByTiles async dst gt) {ts : List (Task1 α)} (e : async = .ok ts)
    {s s' : Store α} (hr : runAll1 ts s = .ok s') {t : List Nat} (ht : InBox dst.grid t) :
    foldBuf s (gt t) (s (dst.id, lin dst.grid t)) = .ok (s' (dst.id, lin dst.grid t)) := by
  obtain ⟨ts', e', h1, h2⟩ := h
  rw [e] at e'
  cases e'
  rw [← h2 t ht]
  refine foldBuf_of_run ?_ hr _
  intro u hu k hk v hv he
  obtain ⟨⟨t', -, ht'⟩, -⟩ := h1 v hv
  apply (h1 u hu).2 k hk
  rw [← he, ht']

/-- The tile `t` after the tasks `gt t`. -/
theorem ByTiles.run {async : M (List (Task1 α))} {dst : Tensor} {gt : List Nat → List (Task1 α)} (h : ByTiles async dst gt) {s : Store α} (b : List Nat → Buf α)
    (hf : ∀ t, InBox dst.grid t → foldBuf s (gt t) (s (dst.id, lin dst.grid t)) = .ok (b t)) :
    ∃ ts s', async = .ok ts ∧ runAll1 ts s = .ok s' ∧ (∀ t, InBox dst.grid t → s' (dst.id, lin dst.grid t) = b t) ∧
      ∀ h : Handle, ¬ (h.1 = dst.id ∧ h.2 < dst.ntiles) → s' h = s h := by
  obtain ⟨ts, e, h1, h2⟩ := h
  obtain ⟨s', g1, g2, g3⟩ := runAll1_tensor (s := s) (ts := ts) dst.id dst.ntiles (fun i => b (dst.tindex i))
    (fun u hu => by obtain ⟨⟨t, ht, e⟩, -⟩ := h1 u hu; exact ⟨_, lin_lt ht, e⟩) (fun u hu => (h1 u hu).2)
    (fun i hi => by
      have := hf _ (dst.tindex_inBox i)
      rw [← h2 _ (dst.tindex_inBox i), Tensor.lin_tindex hi] at this
      exact this)
  exact ⟨ts, s', e, g1, fun t ht => by rw [g2 _ (lin_lt ht), Tensor.tindex_lin ht], g3⟩

/-- A loop over the tiles of `dst`. -/
theorem ByTiles.of_loop {dst : Tensor} {async : M (List (Task1 α))} (gt : List Nat → List (Task1 α))
    (he : async = .ok ((List.range dst.ntiles).flatMap (fun i => gt (dst.tindex i))))
    (hout : ∀ t, InBox dst.grid t → ∀ u ∈ gt t, u.out = (dst.id, lin dst.grid t) ∧ ∀ r ∈ u.reads, r.1 ≠ dst.id) : ByTiles async dst gt := by
  refine ⟨_, he, ?_, ?_⟩
  · intro u hu
    simp only [List.mem_flatMap, List.mem_range] at hu
    obtain ⟨i, hi, hu⟩ := hu
    have := hout _ (dst.tindex_inBox i) u hu
    exact ⟨⟨_, dst.tindex_inBox i, this.1⟩, this.2⟩
  · intro t ht
    rw [filter_flatMap_unique (lin dst.grid t) (show _ < dst.ntiles from lin_lt ht)]
    · rw [Tensor.tindex_lin ht, List.filter_eq_self]
      intro u hu
      simp [(hout t ht u hu).1]
    · intro i hi hne u hu
      simp only [decide_eq_false_iff_not]
      rw [(hout _ (dst.tindex_inBox i) u hu).1, Tensor.lin_tindex hi]
      simp [hne]

/-- A loop over tiles of slices. -/
theorem ByTiles.of_slices {src dst : Tensor} {a : Nat} (hd : dst.WF) (h : src.SliceOf dst a) {async : M (List (Task1 α))} (task : List Nat → Task1 α)
    (he : async = .ok ((List.range src.ntiles).flatMap (fun i => (List.range (dst.grid.getD a 0)).flatMap (fun j => [task ((src.tindex i).insertIdx a j)]))))
    (hout : ∀ t, InBox dst.grid t → (task t).out = (dst.id, lin dst.grid t) ∧ ∀ r ∈ (task t).reads, r.1 ≠ dst.id) : ByTiles async dst (fun t => [task t]) := by
  have hax := h.axis_grid hd
  have hsl : ∀ i, (src.tindex i).length = src.grid.length := fun i => by simp [Tensor.tindex]
  have hgl : src.grid.length = dst.grid.length - 1 := by
    rw [h.grid hd, List.length_eraseIdx_of_lt hax]
  have hal : ∀ i, a ≤ (src.tindex i).length := fun i => by rw [hsl, hgl]; omega
  have hin : ∀ i j, j < dst.grid.getD a 0 → InBox dst.grid ((src.tindex i).insertIdx a j) :=
    fun i j hj => h.insert_inBox hd (src.tindex_inBox i) hj
  refine ⟨_, he, ?_, ?_⟩
  · intro t ht
    simp only [List.mem_flatMap, List.mem_range, List.mem_singleton] at ht
    obtain ⟨i, hi, j, hj, rfl⟩ := ht
    exact ⟨⟨_, hin i j hj, (hout _ (hin i j hj)).1⟩, (hout _ (hin i j hj)).2⟩
  · intro t ht
    have htl : a < t.length := by rw [ht.length]; exact hax
    have hte := h.tile_inBox hd ht
    have hout' : ∀ i j, j < dst.grid.getD a 0 → (task ((src.tindex i).insertIdx a j)).out = (dst.id, lin dst.grid t) →
        (src.tindex i).insertIdx a j = t := by
      intro i j hj he
      rw [(hout _ (hin i j hj)).1] at he
      simp only [Prod.mk.injEq, true_and] at he
      exact lin_inj (hin i j hj) ht he
    have hti : (src.tindex (lin src.grid (t.eraseIdx a))).insertIdx a (t.getD a 0) = t := by
      rw [Tensor.tindex_lin hte, insert_erase htl]
    rw [filter_flatMap_unique (lin src.grid (t.eraseIdx a)) (show _ < src.ntiles from lin_lt hte)]
    · rw [filter_flatMap_unique (t.getD a 0) (ht.getD hax)]
      · simp only [hti, List.filter_cons, (hout t ht).1, decide_true, if_true, List.filter_nil]
      · intro j hj hne u hu
        simp only [List.mem_singleton] at hu
        subst hu
        simp only [decide_eq_false_iff_not]
        intro he
        apply hne
        rw [← hout' _ j hj he, getD_insert (hal _)]
    · intro i hi hne u hu
      simp only [List.mem_flatMap, List.mem_range, List.mem_singleton] at hu
      obtain ⟨j, hj, rfl⟩ := hu
      simp only [decide_eq_false_iff_not]
      intro he
      apply hne
      have := hout' i j hj he
      rw [← this, erase_insert, Tensor.lin_tindex hi]

theorem foldBuf_one {s : Store α} {u : Task1 α} {b b' : Buf α} (h : foldBuf s [u] b = .ok b') : u.fn (u.reads.map s) (u.inp b) = .ok b' := by
  rw [foldBuf_single] at h
  exact h

/-- Lists of tasks with the same effects. -/
theorem foldBuf_map {ι : Type} {s s' : Store α} {l : List ι} {f g : ι → Task1 α} (h : ∀ i ∈ l, ∀ b, (f i).fn ((f i).reads.map s) ((f i).inp b) =
    (g i).fn ((g i).reads.map s') ((g i).inp b)) (b : Buf α) : foldBuf s (l.map f) b = foldBuf s' (l.map g) b := by
  induction l generalizing b with
  | nil => rfl
  | cons i l ih =>
    simp only [List.map_cons, foldBuf]
    rw [h i (by simp)]
    cases (g i).fn ((g i).reads.map s') ((g i).inp b) with
    | error e => rfl
    | ok b' => exact ih (fun i hi => h i (by simp [hi])) b'

/-! ### The operations -/

theorem gemm_byTiles [FP α] {tA tB : TransOp} {A B C : Tensor} {M K N R M' K' N' R' : List Nat} {nd bt : Nat} (hA : A.WF) (hB : B.WF) (hC : C.WF)
    (oA : A.IsOp tA M K R M' K' R') (oB : B.IsOp tB K N R K' N' R') (oC : C.IsOp .noTrans M N R M' N' R') (hK : K.length = nd) (hR : R.length = bt)
    (idA : A.id ≠ C.id) (idB : B.id ≠ C.id) (alpha beta : α) (redux : Bool) :
    ByTiles (gemmAsync alpha tA A tB B beta C nd bt redux) C (fun t => (List.range (gridOf K K').prod).map (fun l =>
      gemmTask tA tB A B C M K N R M' K' N' R' alpha redux (if l = 0 then beta else 1) (t.take M.length)
        ((t.drop M.length).take N.length) (t.drop (M.length + N.length)) (unlin (gridOf K K') l))) := by
  refine ByTiles.of_loop _ ?_ ?_
  · rw [gemmAsync_ok hA hB hC oA oB oC hK hR]
    simp only [← List.map_eq_flatMap]
  · intro t ht u hu
    simp only [List.mem_map, List.mem_range] at hu
    obtain ⟨l, -, rfl⟩ := hu
    have e : t.take M.length ++ (t.drop M.length).take N.length ++ t.drop (M.length + N.length) = t := by
      rw [List.append_assoc, ← List.drop_drop, List.take_append_drop, List.take_append_drop]
    refine ⟨?_, ?_⟩
    · simp only [gemmTask, submitGemm, task2, e]
    · simp only [gemmTask, submitGemm, task2, List.mem_cons, List.not_mem_nil, or_false]
      rintro r (rfl | rfl)
      · exact idA
      · exact idB

end NNTile
