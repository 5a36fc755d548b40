import Verif.Model.Task
import Verif.Lib.Core
import Verif.Lib.Index
/-! Helper lemmas about tasks and tensors. -/
namespace NNTile
variable {α : Type _}

theorem forTasks_ok {τ : Type _} {n : Nat} {f : Nat → M (List τ)} {g : Nat → List τ} (h : ∀ i, i < n → f i = .ok (g i)) :
    forTasks n f = .ok ((List.range n).flatMap g) := by
  induction n with
  | zero => rfl
  | succ n ih =>
    simp only [forTasks, ih (fun i hi => h i (by omega)), h n (by omega), M.bind_ok, List.range_succ, List.flatMap_append]
    simp

/-- If only iteration `i0` emits elements satisfying `p`, filtering the emitted list keeps those of iteration `i0`. -/
theorem filter_flatMap_unique {τ : Type _} {n : Nat} {g : Nat → List τ} {p : τ → Bool} (i0 : Nat) (h0 : i0 < n)
    (hother : ∀ i, i < n → i ≠ i0 → ∀ t ∈ g i, p t = false) :
    ((List.range n).flatMap g).filter p = (g i0).filter p := by
  induction n with
  | zero => omega
  | succ n ih =>
    rw [List.range_succ, List.flatMap_append, List.filter_append]
    simp only [List.flatMap_cons, List.flatMap_nil, List.append_nil]
    by_cases hn : i0 = n
    · subst hn
      have : ((List.range i0).flatMap g).filter p = [] := by
        rw [List.filter_eq_nil_iff]
        intro t ht
        simp only [List.mem_flatMap, List.mem_range] at ht
        obtain ⟨i, hi, ht⟩ := ht
        simp [hother i (by omega) (by omega) t ht]
      rw [this, List.nil_append]
    · rw [ih (by omega) (fun i hi => hother i (by omega))]
      have : (g n).filter p = [] := by
        rw [List.filter_eq_nil_iff]
        intro t ht
        simp [hother n (by omega) (fun h => hn h.symm) t ht]
      rw [this, List.append_nil]

/-! ### Running single-output tasks -/

/-- What a single-output task sees of its output. -/
def Task1.inp (t : Task1 α) (b : Buf α) : Buf α := if t.mode = .W then Buf.undef b.size else b

theorem view_eq (t : Task1 α) (s : Store α) : s.view (t.out, t.mode) = t.inp (s t.out) := by
  cases h : t.mode <;> simp [Store.view, Task1.inp, h]

theorem Task1.exec_ok (t : Task1 α) (s : Store α) (b' : Buf α) (hal : t.out ∉ t.reads)
    (h : t.fn (t.reads.map s) (t.inp (s t.out)) = .ok b') :
    t.toTask.exec s = .ok (fun k => if k = t.out then b' else s k) := by
  have hal' : ¬ (¬ (t.toTask.outs.Nodup) ∨ ∃ h ∈ t.toTask.outs, h ∈ t.toTask.reads) := by
    simp [Task1.toTask, Task.outs, hal]
  rw [Task.exec, if_neg hal']
  simp only [Task1.toTask, Task.outs, List.map_cons, List.map_nil, view_eq, h, M.bind_ok, Store.setAll]

/-- Apply a list of tasks on the same handle, reading from a frozen store. -/
def foldBuf (s : Store α) : List (Task1 α) → Buf α → M (Buf α)
  | [], b => .ok b
  | t :: ts, b => do
    let b ← t.fn (t.reads.map s) (t.inp b)
    foldBuf s ts b

theorem foldBuf_congr {s s' : Store α} {ts : List (Task1 α)} (h : ∀ t ∈ ts, ∀ k ∈ t.reads, s' k = s k) (b : Buf α) :
    foldBuf s' ts b = foldBuf s ts b := by
  induction ts generalizing b with
  | nil => rfl
  | cons t ts ih =>
    have e : t.reads.map s' = t.reads.map s := List.map_congr_left (fun k hk => h t (by simp) k hk)
    simp only [foldBuf, e]
    cases t.fn (t.reads.map s) (t.inp b) with
    | error e => rfl
    | ok b' => exact ih (fun t ht => h t (by simp [ht])) b'

theorem foldBuf_append (s : Store α) (l l' : List (Task1 α)) (b : Buf α) :
    foldBuf s (l ++ l') b = foldBuf s l b >>= foldBuf s l' := by
  induction l generalizing b with
  | nil => rfl
  | cons t l ih =>
    simp only [List.cons_append, foldBuf]
    cases t.fn (t.reads.map s) (t.inp b) with
    | error e => rfl
    | ok b' => exact ih b'

/-- Tasks whose inputs are never outputs act independently on each handle. -/
theorem runAll1_ok {ts : List (Task1 α)} {s s' : Store α}
    (hfrozen : ∀ t ∈ ts, ∀ h ∈ t.reads, ∀ u ∈ ts, u.out ≠ h)
    (hfold : ∀ h, foldBuf s (ts.filter (fun t => t.out = h)) (s h) = .ok (s' h)) :
    runAll1 ts s = .ok s' := by
  induction ts generalizing s with
  | nil =>
    simp only [List.filter_nil, foldBuf, Except.ok.injEq] at hfold
    simp only [runAll1, List.map_nil, runAll]
    congr 1; funext h; exact hfold h
  | cons t ts ih =>
    have h0 := hfold t.out
    simp only [List.filter_cons, decide_true, if_true, foldBuf] at h0
    rw [M.bind_eq_ok] at h0
    obtain ⟨b', hb', hrest⟩ := h0
    have hal : t.out ∉ t.reads := fun h => hfrozen t (by simp) _ h t (by simp) rfl
    simp only [runAll1, List.map_cons, runAll, Task1.exec_ok t s b' hal hb', M.bind_ok]
    apply ih
    · intro u hu k hk v hv
      exact hfrozen u (by simp [hu]) k hk v (by simp [hv])
    · intro k
      have hcongr : ∀ b, foldBuf (fun k => if k = t.out then b' else s k) (ts.filter (fun t => t.out = k)) b
          = foldBuf s (ts.filter (fun t => t.out = k)) b := by
        intro b
        apply foldBuf_congr
        intro u hu r hr
        have hu' : u ∈ ts := (List.mem_filter.1 hu).1
        have : t.out ≠ r := hfrozen u (by simp [hu']) r hr t (by simp)
        rw [if_neg (fun h => this h.symm)]
      rw [hcongr]
      by_cases hk : k = t.out
      · subst hk; rw [if_pos rfl]; exact hrest
      · rw [if_neg hk]
        have := hfold k
        rw [List.filter_cons, if_neg (by simpa using fun h : t.out = k => hk h.symm)] at this
        exact this

/-- Tasks writing only tiles of one tensor and reading only tiles of other tensors: result tile by tile. -/
theorem runAll1_tensor {ts : List (Task1 α)} {s : Store α} (id n : Nat) (final : Nat → Buf α)
    (houts : ∀ t ∈ ts, ∃ i, i < n ∧ t.out = (id, i))
    (hreads : ∀ t ∈ ts, ∀ h ∈ t.reads, h.1 ≠ id)
    (hfold : ∀ i, i < n → foldBuf s (ts.filter (fun t => t.out = (id, i))) (s (id, i)) = .ok (final i)) :
    ∃ s', runAll1 ts s = .ok s' ∧ (∀ i, i < n → s' (id, i) = final i) ∧
      (∀ h : Handle, ¬ (h.1 = id ∧ h.2 < n) → s' h = s h) := by
  refine ⟨fun h => if h.1 = id ∧ h.2 < n then final h.2 else s h, ?_, ?_, ?_⟩
  · apply runAll1_ok
    · intro t ht h hh u hu heq
      obtain ⟨i, -, hi⟩ := houts u hu
      apply hreads t ht h hh
      rw [← heq, hi]
    · intro h
      by_cases hh : h.1 = id ∧ h.2 < n
      · simp only [hh, and_self, if_true]
        have : h = (id, h.2) := by rw [← hh.1]
        have h3 := hfold h.2 hh.2
        rw [← this] at h3
        exact h3
      · rw [if_neg hh]
        have : ts.filter (fun t => t.out = h) = [] := by
          rw [List.filter_eq_nil_iff]
          intro t ht
          obtain ⟨i, hi, he⟩ := houts t ht
          simp only [decide_eq_true_eq]
          intro h'
          rw [h'] at he
          exact hh (by rw [he]; exact ⟨rfl, hi⟩)
        rw [this]; rfl
  · intro i hi
    simp [hi]
  · intro h hh
    simp only [hh, if_false]

/-! ### Tensors -/
namespace Tensor
variable {T : Tensor}

theorem grid_pos (T : Tensor) : Pos T.grid := gridOf_pos _ _
theorem ntiles_pos (T : Tensor) : 0 < T.ntiles := (T.grid_pos).prod

theorem WF.grid_length (h : T.WF) : T.grid.length = T.shape.length := gridOf_length h.2.2

theorem handleL_ok {i : Nat} (h : i < T.ntiles) : T.handleL i = .ok (T.id, i) := by simp [handleL, h]
theorem handleAt_ok {t : List Nat} (h : InBox T.grid t) : T.handleAt t = .ok (T.id, lin T.grid t) := by simp [handleAt, h]
theorem tshapeAt_ok {t : List Nat} (h : InBox T.grid t) : T.tshapeAt t = .ok (T.tshape t) := by simp [tshapeAt, h]

theorem tindex_inBox (T : Tensor) (i : Nat) : InBox T.grid (T.tindex i) := unlin_inBox T.grid_pos i
theorem lin_tindex {i : Nat} (h : i < T.ntiles) : lin T.grid (T.tindex i) = i := lin_unlin h
theorem tindex_lin {t : List Nat} (h : InBox T.grid t) : T.tindex (lin T.grid t) = t := unlin_lin h

theorem WF.tileIdx_inBox (h : T.WF) {I : List Nat} (hI : InBox T.shape I) : InBox T.grid (tileIdx T.basetile I) :=
  NNTile.tileIdx_inBox h.2.1 h.2.2 hI
theorem WF.locIdx_inBox (h : T.WF) {I : List Nat} (hI : InBox T.shape I) :
    InBox (T.tshape (tileIdx T.basetile I)) (locIdx T.basetile I) := NNTile.locIdx_inBox h.2.1 h.2.2 hI

theorem hOf_fst (T : Tensor) (I : List Nat) : (T.hOf I).1 = T.id := rfl

theorem WF.hOf_lt (h : T.WF) {I : List Nat} (hI : InBox T.shape I) : (T.hOf I).2 < T.ntiles :=
  lin_lt (h.tileIdx_inBox hI)
theorem WF.oOf_lt (h : T.WF) {I : List Nat} (hI : InBox T.shape I) : T.oOf I < (T.tshape (tileIdx T.basetile I)).prod :=
  lin_lt (h.locIdx_inBox hI)

/-- Every position of every tile is the position of a unique element. -/
theorem WF.glob (h : T.WF) {t l : List Nat} (ht : InBox T.grid t) (hl : InBox (T.tshape t) l) :
    InBox T.shape (globIdx T.basetile t l) ∧ T.hOf (globIdx T.basetile t l) = (T.id, lin T.grid t) ∧
      T.oOf (globIdx T.basetile t l) = lin (T.tshape t) l := by
  have hT : t.length = T.shape.length := by rw [ht.length, h.grid_length]
  obtain ⟨h1, h2⟩ := tileIdx_glob h.2.2 hT hl
  refine ⟨globIdx_inBox h.2.2 hT hl, ?_, ?_⟩
  · simp only [hOf, h1]
  · simp only [oOf, h1, h2]

/-- Reading position `l` of tile `t`. -/
theorem WF.get_glob (h : T.WF) {t l : List Nat} (ht : InBox T.grid t) (hl : InBox (T.tshape t) l) (s : Store α) :
    T.get s (globIdx T.basetile t l) = (s (T.id, lin T.grid t)).data (lin (T.tshape t) l) := by
  obtain ⟨-, h2, h3⟩ := h.glob ht hl
  simp only [get, h2, h3]

theorem get_congr {T : Tensor} {s s' : Store α} (h : ∀ i, s' (T.id, i) = s (T.id, i)) (I : List Nat) : T.get s' I = T.get s I := by
  simp only [get, hOf, h]

theorem WF.tshape_pos (h : T.WF) {t : List Nat} (ht : InBox T.grid t) : Pos (T.tshape t) :=
  tileShape_pos h.1 h.2.1 h.2.2 ht

theorem WF.tshape_length (h : T.WF) {t : List Nat} (ht : InBox T.grid t) : (T.tshape t).length = T.shape.length :=
  tileShape_length h.2.2 (by rw [ht.length, h.grid_length])

end Tensor

theorem OnlyChanged.of_tensor {s s' : Store α} {id n : Nat} (h : ∀ h : Handle, ¬ (h.1 = id ∧ h.2 < n) → s' h = s h) :
    OnlyChanged [id] s s' := by
  intro k hk
  apply h
  intro h'
  simp at hk
  exact hk h'.1

theorem OnlyChanged.get {s s' : Store α} {ids : List Nat} (h : OnlyChanged ids s s') {T : Tensor} (hT : T.id ∉ ids) (I : List Nat) :
    T.get s' I = T.get s I := Tensor.get_congr (fun i => h (T.id, i) hT) I

/-- Tasks that write only tiles of `dst` and read only tiles of other tensors: if the tasks of each tile, in order of submission, turn the
tile into the specified one, the tensor as a whole is as specified. -/
theorem run_tensor {dst : Tensor} (hd : dst.WF) {s : Store α} (ha : dst.Alloc s) {ts : List (Task1 α)} (spec : List Nat → Option α)
    (houts : ∀ t ∈ ts, ∃ i, i < dst.ntiles ∧ t.out = (dst.id, i))
    (hreads : ∀ t ∈ ts, ∀ h ∈ t.reads, h.1 ≠ dst.id)
    (hfold : ∀ t, InBox dst.grid t → ∃ b', foldBuf s (ts.filter (fun u => u.out = (dst.id, lin dst.grid t))) (s (dst.id, lin dst.grid t)) = .ok b' ∧
      b'.size = (s (dst.id, lin dst.grid t)).size ∧
      ∀ l, InBox (dst.tshape t) l → b'.data (lin (dst.tshape t) l) = spec (globIdx dst.basetile t l)) :
    ∃ s', runAll1 ts s = .ok s' ∧ (∀ I, InBox dst.shape I → dst.get s' I = spec I) ∧ OnlyChanged [dst.id] s s' ∧ dst.Alloc s' := by
  have hfold' : ∀ i, i < dst.ntiles → ∃ b', foldBuf s (ts.filter (fun u => u.out = (dst.id, i))) (s (dst.id, i)) = .ok b' ∧
      b'.size = (s (dst.id, i)).size ∧
      ∀ l, InBox (dst.tshapeL i) l → b'.data (lin (dst.tshapeL i) l) = spec (globIdx dst.basetile (dst.tindex i) l) := by
    intro i hi
    have := hfold (dst.tindex i) (dst.tindex_inBox i)
    rwa [Tensor.lin_tindex hi] at this
  choose! fin hfin using hfold'
  obtain ⟨s', h1, h2, h3⟩ := runAll1_tensor (ts := ts) (s := s) dst.id dst.ntiles fin houts hreads (fun i hi => (hfin i hi).1)
  refine ⟨s', h1, ?_, OnlyChanged.of_tensor h3, ?_⟩
  · intro I hI
    have hti := hd.tileIdx_inBox hI
    have hli := hd.locIdx_inBox hI
    have hlt : lin dst.grid (tileIdx dst.basetile I) < dst.ntiles := lin_lt hti
    have hx := (hfin _ hlt).2.2 (locIdx dst.basetile I)
    simp only [Tensor.tshapeL, Tensor.tindex_lin hti] at hx
    have := hx hli
    rw [globIdx_tile_loc (by rw [hI.length, hd.2.2])] at this
    simp only [Tensor.get, Tensor.hOf, Tensor.oOf, h2 _ hlt, this]
  · intro i hi
    rw [h2 i hi, (hfin i hi).2.1]; exact ha i hi

/-- The same for a loop over the tiles of `dst`, whose iteration `i` submits tasks for tile `i` only. -/
theorem run_tilewise {dst : Tensor} (hd : dst.WF) {s : Store α} (ha : dst.Alloc s) {gt : Nat → List (Task1 α)} (spec : List Nat → Option α)
    (houts : ∀ i, i < dst.ntiles → ∀ t ∈ gt i, t.out = (dst.id, i))
    (hreads : ∀ i, i < dst.ntiles → ∀ t ∈ gt i, ∀ h ∈ t.reads, h.1 ≠ dst.id)
    (hfold : ∀ t, InBox dst.grid t → ∃ b', foldBuf s (gt (lin dst.grid t)) (s (dst.id, lin dst.grid t)) = .ok b' ∧
      b'.size = (s (dst.id, lin dst.grid t)).size ∧
      ∀ l, InBox (dst.tshape t) l → b'.data (lin (dst.tshape t) l) = spec (globIdx dst.basetile t l)) :
    ∃ s', runAll1 ((List.range dst.ntiles).flatMap gt) s = .ok s' ∧ (∀ I, InBox dst.shape I → dst.get s' I = spec I) ∧
      OnlyChanged [dst.id] s s' ∧ dst.Alloc s' := by
  apply run_tensor hd ha spec
  · intro t ht
    simp only [List.mem_flatMap, List.mem_range] at ht
    obtain ⟨i, hi, h⟩ := ht
    exact ⟨i, hi, houts i hi t h⟩
  · intro t ht
    simp only [List.mem_flatMap, List.mem_range] at ht
    obtain ⟨i, hi, h⟩ := ht
    exact hreads i hi t h
  · intro t ht
    have hlt : lin dst.grid t < dst.ntiles := lin_lt ht
    rw [filter_flatMap_unique (lin dst.grid t) hlt]
    · have : (gt (lin dst.grid t)).filter (fun u => u.out = (dst.id, lin dst.grid t)) = gt (lin dst.grid t) := by
        rw [List.filter_eq_self]
        intro u hu
        simp [houts _ hlt u hu]
      rw [this]
      exact hfold t ht
    · intro j hj hji u hu
      simp [houts j hj u hu, hji]

theorem Tensor.tshapeL_lin {dst : Tensor} {t : List Nat} (ht : InBox dst.grid t) : dst.tshapeL (lin dst.grid t) = dst.tshape t := by
  rw [Tensor.tshapeL, Tensor.tindex_lin ht]

theorem Tensor.Alloc.size {dst : Tensor} {s : Store α} (ha : dst.Alloc s) {t : List Nat} (ht : InBox dst.grid t) :
    (s (dst.id, lin dst.grid t)).size = (dst.tshape t).prod := by
  rw [ha _ (lin_lt ht), Tensor.tshapeL_lin ht]

end NNTile
