import Verif.Lib.Fp16Copy
import Verif.Props.C09
import Verif.Lib.Store
/-!
# C76: scatter and gather of tensors of half precision

Full property: for tensors of half precision `scatter` and `gather` do what C09 says. Proved if the other tensor has a single tile, too, and for all arguments which are rejected. For several tiles it is
false for all tensors: the tiles are accessed as arrays of single precision, beyond their ends.
-/
namespace NNTile
variable {α : Type}

/-- A whole tile cannot be copied in units which are twice as large as its elements. -/
theorem fp16_task_ub [Nontrivial α] {S D srcStart dstStart box : List Nat} {src dst : Handle} {mode : WMode} {s : Store α} (ts : List (Task1 α)) (hne : box ≠ []) (hbox : Pos box)
    (l1 : srcStart.length = box.length) (l2 : S.length = box.length) (l3 : dstStart.length = box.length) (l4 : D.length = box.length)
    (hD : ∀ j, InBox box j → InBox D (addIdx dstStart j))
    (h : (∃ j, InBox box j ∧ (s src).size / 2 ≤ lin S (addIdx srcStart j)) ∨ ∃ j, InBox box j ∧ (s dst).size / 2 ≤ lin D (addIdx dstStart j)) :
    IsUB (runAll1 (submitSubcopyFp16 srcStart (strideFrom 1 S) dstStart (strideFrom 1 D) box src dst mode :: ts) s) := by
  have hd : ∀ X : List Nat, X.length = box.length → (strideFrom 1 X).head? = some 1 := by
    intro X hX
    cases X with
    | nil => simp at hX; exact absurd hX.symm (by simpa using hne)
    | cons x X => rfl
  have hv : (s.view (dst, mode)).size = (s dst).size := by cases mode <;> rfl
  have key : IsUB (subcopyKernel srcStart (strideFrom 1 S) box (s src).words dstStart (strideFrom 1 D) (s.view (dst, mode)).words) := by
    refine ub_of_nothrow (subcopyKernel_nothrow _ _ _ _ _ _ _) fun out e => ?_
    have := fun j (hj : InBox box j) => subcopy_inside hne hbox l1 (by simp [l2]) l3 (by simp [l4]) (hd S l2) (hd D l4)
      (by
        intro i j hi hj h
        rw [dot_stride, dot_stride] at h
        exact addIdx_inj (by rw [hi.length, l3]) (by rw [hj.length, l3]) (lin_inj (hD i hi) (hD j hj) h)) e hj
    simp only [dot_stride, Buf.words, hv] at this
    rcases h with ⟨j, hj, h⟩ | ⟨j, hj, h⟩
    · have := (this j hj).1; omega
    · have := (this j hj).2; omega
  obtain ⟨m, hm⟩ := key
  simp only [runAll1, List.map_cons, runAll, Task.exec, Task1.toTask, submitSubcopyFp16, Task.outs, List.map_nil]
  split_ifs
  · exact ⟨_, rfl⟩
  · rw [hm]; exact ⟨m, rfl⟩

theorem last_beyond {n : Nat} (h : 0 < n) : n / 2 ≤ n - 1 := by omega

/-- Gathering a tensor of half precision of several tiles is accepted, and its execution is undefined behaviour, for every shape and tiling. -/
theorem C76_gather_refuted [Nontrivial α] {src dst : Tensor} (hs : src.WF) (hd : dst.WF) (hsh : src.shape = dst.shape) (h1 : dst.ntiles = 1) (h2 : src.ntiles ≠ 1)
    {s : Store α} (has : src.Alloc s) : ∃ ts, gatherFp16Async src dst = .ok ts ∧ IsUB (runAll1 ts s) := by
  have hnt := src.ntiles_pos
  have hgl : src.grid.length = src.ndim := by rw [hs.grid_length]; rfl
  have hzero : unlin src.grid 0 = List.replicate src.ndim 0 := by rw [unlin_zero, hgl]
  have hloop := odoLoop1_ok (next := gridNext src.grid)
    (body := fun i index => do
      let srcH ← src.handleL i
      .ok [submitSubcopyFp16 (α := α) (List.replicate src.ndim 0) (strideFrom 1 (src.tshapeL i)) (mulIdx index src.basetile)
        (strideFrom 1 (dst.tshapeL 0)) (src.tshapeL i) srcH (dst.id, 0) .RW])
    (S := fun i => unlin src.grid i) (g := fun i => [submitSubcopyFp16 (α := α) (List.replicate src.ndim 0) (strideFrom 1 (src.tshapeL i)) (mulIdx (unlin src.grid i) src.basetile)
        (strideFrom 1 (dst.tshapeL 0)) (src.tshapeL i) (src.id, i) (dst.id, 0) .RW]) (n := src.ntiles)
    (fun i hi => gridNext_spec src.grid_pos hi)
    (by intro i hi; simp only [Tensor.handleL_ok hi, M.bind_ok])
  rw [hzero] at hloop
  simp only [gatherFp16Async]
  rw [throwIf_neg (by simpa using h1), throwIf_neg (by simpa using hsh)]
  simp only [if_neg h2, Tensor.handleL_ok (T := src) (i := 0) hnt, Tensor.handleL_ok (T := dst) (i := 0) (by omega), M.bind_ok]
  rw [hloop, M.bind_ok]
  refine ⟨_, rfl, ?_⟩
  · obtain ⟨etd, -⟩ := hd.single h1
    have hz : InBox src.grid (unlin src.grid 0) := unlin_inBox src.grid_pos 0
    have htl : (src.tshapeL 0).length = src.shape.length := by
      rw [← lin_unlin (s := src.grid) (k := 0) hnt, Tensor.tshapeL_lin hz]; exact hs.tshape_length hz
    have hp : Pos (src.tshapeL 0) := by
      rw [← lin_unlin (s := src.grid) (k := 0) hnt, Tensor.tshapeL_lin hz]; exact hs.tshape_pos hz
    have hnd : src.ndim ≠ 0 := by
      intro h0
      apply h2
      have : src.grid = [] := List.eq_nil_of_length_eq_zero (by rw [hgl, h0])
      simp [Tensor.ntiles, this]
    have hl0 : (List.replicate src.ndim 0).length = (src.tshapeL 0).length := by rw [List.length_replicate, htl]; rfl
    have hsub : ∀ j, InBox (src.tshapeL 0) j → addIdx (List.replicate src.ndim 0) j = j := fun j hj => addIdx_replicate_zero (by rw [hj.length, htl]; rfl)
    refine fp16_task_ub _ (fun h => hnd (by rw [h] at htl; exact htl.symm)) hp hl0 rfl hl0 (by rw [etd, htl, hsh]) ?_ (.inl ⟨unlin (src.tshapeL 0) ((src.tshapeL 0).prod - 1), unlin_inBox hp _, ?_⟩)
    · intro j hj
      rw [hsub j hj, etd, ← hsh]
      have hj' : InBox (src.tshape (unlin src.grid 0)) j := by rwa [← Tensor.tshapeL_lin hz, lin_unlin (s := src.grid) (k := 0) hnt]
      have := (hs.glob hz hj').1
      rwa [globIdx_eq_addIdx, hzero, show mulIdx (List.replicate src.ndim 0) src.basetile = List.replicate src.ndim 0 from ?_, hsub j hj] at this
      have e2 : ∀ (B : List Nat) n, n = B.length → mulIdx (List.replicate n 0) B = List.replicate n 0 := by
        intro B
        induction B with
        | nil => rintro n rfl; rfl
        | cons b B ih => rintro n rfl; simp [List.replicate_succ, mulIdx, ih]
      exact e2 _ _ (by rw [hs.2.2]; rfl)
    · have hpp := hp.prod
      rw [hsub _ (unlin_inBox hp _), lin_unlin (by omega), has 0 hnt]
      exact last_beyond hpp

/-- Scattering into a tensor of half precision of several tiles is accepted, and its execution is undefined behaviour, for every shape and tiling. -/
theorem C76_scatter_refuted [Nontrivial α] {src dst : Tensor} (hs : src.WF) (hd : dst.WF) (hsh : src.shape = dst.shape) (h1 : src.ntiles = 1) (h2 : dst.ntiles ≠ 1)
    {s : Store α} (had : dst.Alloc s) : ∃ ts, scatterFp16Async src dst = .ok ts ∧ IsUB (runAll1 ts s) := by
  have hnt := dst.ntiles_pos
  have hgl : dst.grid.length = src.ndim := by rw [hd.grid_length, ← hsh]; rfl
  have hzero : unlin dst.grid 0 = List.replicate src.ndim 0 := by rw [unlin_zero, hgl]
  have hloop := odoLoop_ok (next := gridNext dst.grid)
    (body := fun i index => do
      let dstH ← dst.handleL i
      .ok [submitSubcopyFp16 (α := α) (mulIdx index dst.basetile) (strideFrom 1 (src.tshapeL 0)) (List.replicate src.ndim 0)
        (strideFrom 1 (dst.tshapeL i)) (dst.tshapeL i) (src.id, 0) dstH .W])
    (S := fun i => unlin dst.grid i) (g := fun i => [submitSubcopyFp16 (α := α) (mulIdx (unlin dst.grid i) dst.basetile) (strideFrom 1 (src.tshapeL 0)) (List.replicate src.ndim 0)
        (strideFrom 1 (dst.tshapeL i)) (dst.tshapeL i) (src.id, 0) (dst.id, i) .W]) (n := dst.ntiles)
    (fun i hi => gridNext_spec dst.grid_pos hi)
    (by intro i hi; simp only [Tensor.handleL_ok hi, M.bind_ok])
  rw [hzero] at hloop
  simp only [scatterFp16Async]
  rw [throwIf_neg (by simpa using h1), throwIf_neg (by simpa using hsh)]
  simp only [if_neg h2, Tensor.handleL_ok (T := src) (i := 0) (by omega), M.bind_ok]
  rw [hloop]
  refine ⟨_, rfl, ?_⟩
  · obtain ⟨n, hn⟩ : ∃ n, dst.ntiles = n + 1 := ⟨dst.ntiles - 1, by omega⟩
    rw [hn, List.range_succ_eq_map, List.flatMap_cons, List.singleton_append, hzero]
    obtain ⟨ets, -⟩ := hs.single h1
    have hz : InBox dst.grid (unlin dst.grid 0) := unlin_inBox dst.grid_pos 0
    have htl : (dst.tshapeL 0).length = dst.shape.length := by
      rw [← lin_unlin (s := dst.grid) (k := 0) hnt, Tensor.tshapeL_lin hz]; exact hd.tshape_length hz
    have hp : Pos (dst.tshapeL 0) := by
      rw [← lin_unlin (s := dst.grid) (k := 0) hnt, Tensor.tshapeL_lin hz]; exact hd.tshape_pos hz
    have hnd : src.ndim ≠ 0 := by
      intro h0
      apply h2
      have : dst.grid = [] := List.eq_nil_of_length_eq_zero (by rw [hgl, h0])
      simp [Tensor.ntiles, this]
    have hl0 : (List.replicate src.ndim 0).length = (dst.tshapeL 0).length := by rw [List.length_replicate, htl, ← hsh]; rfl
    have hsub : ∀ j, InBox (dst.tshapeL 0) j → addIdx (List.replicate src.ndim 0) j = j := fun j hj => addIdx_replicate_zero (by rw [hj.length, ← hl0, List.length_replicate])
    refine fp16_task_ub _ (fun h => hnd (by rw [h] at htl; rw [Tensor.ndim, hsh]; exact htl.symm)) hp ?_ (by rw [ets, htl, hsh]) hl0 rfl ?_ (.inr ⟨unlin (dst.tshapeL 0) ((dst.tshapeL 0).prod - 1), unlin_inBox hp _, ?_⟩)
    · rw [mulIdx_length (by rw [List.length_replicate, hd.2.2, ← hsh]; rfl), hd.2.2, htl]
    · intro j hj
      rwa [hsub j hj]
    · have hpp := hp.prod
      rw [hsub _ (unlin_inBox hp _), lin_unlin (by omega), had 0 hnt]
      exact last_beyond hpp

/-- Proved: if the tensor which may be tiled has a single tile, scatter copies it. Missing: `C76_scatter_refuted`. -/
theorem C76_scatter_partial {src dst : Tensor} (hs : src.WF) (hd : dst.WF) (hid : src.id ≠ dst.id) (hsh : src.shape = dst.shape) (h1 : src.ntiles = 1) (h2 : dst.ntiles = 1)
    {s : Store α} (has : src.Alloc s) (had : dst.Alloc s) (hdef : src.Defined s) : ∃ ts s', scatterFp16Async src dst = .ok ts ∧ runAll1 ts s = .ok s' ∧
      (∀ I, InBox dst.shape I → ∃ v, src.get s I = some v ∧ dst.get s' I = some v) ∧ OnlyChanged [dst.id] s s' := by
  have e : scatterFp16Async (α := α) src dst = scatterAsync src dst := by
    unfold scatterFp16Async scatterAsync
    simp only [if_pos h2]
  rw [e]
  exact C09_scatter hs hd hid hsh h1 has had hdef

/-- Proved: if the tensor which may be tiled has a single tile, gather copies it. Missing: `C76_gather_refuted`. -/
theorem C76_gather_partial {src dst : Tensor} (hs : src.WF) (hd : dst.WF) (hid : src.id ≠ dst.id) (hsh : src.shape = dst.shape) (h1 : dst.ntiles = 1) (h2 : src.ntiles = 1)
    {s : Store α} (has : src.Alloc s) (had : dst.Alloc s) (hdef : src.Defined s) : ∃ ts s', gatherFp16Async src dst = .ok ts ∧ runAll1 ts s = .ok s' ∧
      (∀ I, InBox dst.shape I → ∃ v, src.get s I = some v ∧ dst.get s' I = some v) ∧ OnlyChanged [dst.id] s s' := by
  have e : gatherFp16Async (α := α) src dst = gatherAsync src dst := by
    unfold gatherFp16Async gatherAsync
    simp only [if_pos h2]
  rw [e]
  exact C09_gather hs hd hid hsh h1 has had hdef

/-- Wrong arguments are rejected by an exception. -/
theorem C76_rejects {src dst : Tensor} :
    (src.ntiles ≠ 1 ∨ src.shape ≠ dst.shape → Throws (scatterFp16Async (α := α) src dst)) ∧
    (dst.ntiles ≠ 1 ∨ src.shape ≠ dst.shape → Throws (gatherFp16Async (α := α) src dst)) := by
  constructor
  · intro h
    unfold scatterFp16Async
    by_cases h1 : src.ntiles = 1
    · rw [throwIf_neg (by simpa using h1), M.bind_ok]
      exact throws_pos (by tauto)
    · exact throws_pos h1
  · intro h
    unfold gatherFp16Async
    by_cases h1 : dst.ntiles = 1
    · rw [throwIf_neg (by simpa using h1), M.bind_ok]
      exact throws_pos (by tauto)
    · exact throws_pos h1

/-- A vector of three elements in tiles of two. -/
example : ∃ (src dst : Tensor) (s : Store Bool), src.ntiles = 2 ∧ src.Alloc s ∧ ∃ ts, gatherFp16Async src dst = .ok ts ∧ IsUB (runAll1 ts s) := by
  obtain ⟨h, -⟩ : (⟨0, [3], [2]⟩ : Tensor).Ready (fun h => if h = ((0 : Nat), (0 : Nat)) then (⟨2, fun _ => some true⟩ : Buf Bool) else ⟨1, fun _ => some false⟩) ∧ True := by
    refine ⟨⟨by simp [Tensor.WF], ?_⟩, trivial⟩
    intro i hi
    have : i < 2 := hi
    obtain rfl | rfl : i = 0 ∨ i = 1 := by omega
    · rfl
    · rfl
  exact ⟨⟨0, [3], [2]⟩, ⟨1, [3], [3]⟩, _, rfl, h.2, C76_gather_refuted (dst := ⟨1, [3], [3]⟩) h.1 (by simp [Tensor.WF]) rfl rfl (by decide) h.2⟩

end NNTile
