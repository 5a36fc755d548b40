import Verif.Lib.Fusion
import Verif.Props.C21
/-! `ByTiles` for the operations of attention. -/
namespace NNTile
variable {α : Type}

theorem ByTiles.of_single {dst : Tensor} {body : Nat → M (List (Task1 α))} (task : List Nat → Task1 α)
    (hb : ∀ t, InBox dst.grid t → body (lin dst.grid t) = .ok [task t])
    (hout : ∀ t, InBox dst.grid t → (task t).out = (dst.id, lin dst.grid t) ∧ ∀ r ∈ (task t).reads, r.1 ≠ dst.id) :
    ByTiles (forTasks dst.ntiles body) dst (fun t => [task t]) := by
  refine ByTiles.of_loop _ ?_ (fun t ht u hu => ?_)
  · apply forTasks_ok
    intro i hi
    have := hb _ (dst.tindex_inBox i)
    rwa [Tensor.lin_tindex hi] at this
  · simp only [List.mem_singleton] at hu
    subst hu
    exact hout t ht

theorem clear_byTiles [FP α] (dst : Tensor) : ByTiles (clearAsync (α := α) dst) dst (fun t => [submitClear (dst.id, lin dst.grid t)]) := by
  refine ByTiles.of_single _ (fun t ht => ?_) (fun t ht => ⟨rfl, by simp [submitClear, task0]⟩)
  rw [Tensor.handleL_ok (lin_lt ht), M.bind_ok]

theorem prod_byTiles [FP α] {src dst : Tensor} (h : src.Like dst) : ByTiles (prodAsync (α := α) src dst) dst
    (fun t => [submitProd (dst.tshape t).prod (src.id, lin dst.grid t) (dst.id, lin dst.grid t)]) := by
  obtain ⟨hid, h1, h2⟩ := h
  have hg : src.grid = dst.grid := by rw [Tensor.grid, h1, h2]; rfl
  have hn : src.ntiles = dst.ntiles := by rw [Tensor.ntiles, hg]; rfl
  simp only [prodAsync, checkSame'_ok h1 h2, M.bind_ok, loop1]
  rw [hn]
  refine ByTiles.of_single _ (fun t ht => ?_) (fun t ht => ⟨rfl, by simp [submitProd, task1, hid]⟩)
  rw [Tensor.handleL_ok (by rw [hn]; exact lin_lt ht), M.bind_ok, Tensor.handleL_ok (lin_lt ht), M.bind_ok]
  have : src.tnelems (lin dst.grid t) = (dst.tshape t).prod := by
    rw [Tensor.tnelems, Tensor.tshapeL, Tensor.tindex, hg, Tensor.tshape, h1, h2, unlin_lin ht]
    rfl
  rw [this]

theorem mask_byTiles {mask A : Tensor} (asBool : α → Bool) (hm : mask.WF) (hA : A.WF) (hid : mask.id ≠ A.id) (h : mask.LeadOf A) (val : α) :
    ByTiles (maskScalarAsync asBool mask val A (A.ndim - mask.ndim)) A (fun t => [submitMaskScalar asBool ((A.tshape t).take mask.ndim).prod
      ((A.tshape t).drop mask.ndim).prod (mask.id, lin mask.grid (t.take mask.ndim)) val (A.id, lin A.grid t)]) := by
  have hc := (maskCheck hm hA h.le).ok h
  have hP := h.proj hA
  have hle := h.le
  simp only [maskScalarAsync]
  rw [throwIf_neg (by omega), M.bind_ok, hc, M.bind_ok]
  have htk : ∀ t, InBox A.grid t → proj (List.range mask.shape.length) t = t.take mask.ndim := fun t ht =>
    proj_range (by rw [ht.length, hA.grid_length]; exact hle)
  refine ByTiles.of_single _ (fun t ht => ?_) (fun t ht => ⟨rfl, by simp [submitMaskScalar, task1, hid]⟩)
  have hin := hP.tile_inBox hA ht
  rw [htk t ht] at hin
  rw [Tensor.handleL_ok (lin_lt ht), M.bind_ok, Tensor.tindex_lin ht, vslice, if_pos (by rw [ht.length, hA.grid_length]; simpa [Tensor.ndim] using hle), M.bind_ok,
    List.drop_zero, Tensor.handleAt_ok hin, M.bind_ok, Tensor.tshapeL_lin ht]

theorem softmax_byTiles [FP α] {mse dst : Tensor} {a : Nat} (hm : mse.WF) (hd : dst.WF) (hid : mse.id ≠ dst.id) (h : mse.MseOf dst a) (alpha : α) :
    ByTiles (softmaxInplaceAsync mse alpha dst a) dst (fun t => [submitSoftmaxInplace (mOf (dst.tshape t) a) (nOf (dst.tshape t) a) (kOf (dst.tshape t) a)
      (mse.id, lin mse.sl.grid (t.eraseIdx a)) alpha (dst.id, lin dst.grid t)]) := by
  have hn := h.ndim_eq hd
  have hax := h.axis
  have hc := (checkMse_check hd hm (a := a) hax hn (by rw [h.shape]; rfl) (by rw [h.basetile]; rfl)).ok h
  have hsl := h.slice
  simp only [softmaxInplaceAsync]
  rw [throwIf_neg (by simp [hn]), M.bind_ok, throwIf_neg (by rw [← hn]; simp only [Tensor.ndim]; omega), M.bind_ok,
    throwIf_neg (by omega), M.bind_ok, throwIf_neg (by simp only [Tensor.ndim]; omega), M.bind_ok, vget_ok (by rw [h.shape]; simp), M.bind_ok,
    throwIf_neg (by rw [h.shape]; simp), M.bind_ok, vget_ok (by rw [h.basetile]; simp), M.bind_ok, throwIf_neg (by rw [h.basetile]; simp), M.bind_ok]
  simp only [Int.toNat_natCast, hc, M.bind_ok]
  rw [softmaxLoop_eq hd h (fun t => submitSoftmaxInplace (mOf (dst.tshape t) a) (nOf (dst.tshape t) a) (kOf (dst.tshape t) a)
    (mse.id, lin mse.sl.grid (t.eraseIdx a)) alpha (dst.id, lin dst.grid t)) (fun t ht => rfl)]
  refine ByTiles.of_slices hd hsl (fun t => submitSoftmaxInplace (mOf (dst.tshape t) a) (nOf (dst.tshape t) a) (kOf (dst.tshape t) a)
      (mse.id, lin mse.sl.grid (t.eraseIdx a)) alpha (dst.id, lin dst.grid t)) ?_ (fun t ht => ⟨rfl, ?_⟩)
  · apply sliceLoop_ok hd hsl (fun t => submitSoftmaxInplace (mOf (dst.tshape t) a) (nOf (dst.tshape t) a) (kOf (dst.tshape t) a)
      (mse.id, lin mse.sl.grid (t.eraseIdx a)) alpha (dst.id, lin dst.grid t))
    intro t ht
    rfl
  · simp [submitSoftmaxInplace, task1, hid]

theorem addSlice_byTiles [FP α] {src dst : Tensor} {a : Nat} (hs : src.WF) (hd : dst.WF) (hid : src.id ≠ dst.id) (h : src.SliceOf dst a) (alpha beta : α) :
    ByTiles (addSliceAsync alpha src beta dst a) dst (fun t => [submitAddSlice (mOf (dst.tshape t) a) (nOf (dst.tshape t) a) (kOf (dst.tshape t) a) alpha
      (src.id, lin src.grid (t.eraseIdx a)) beta (dst.id, lin dst.grid t)]) := by
  have hn : dst.ndim = src.ndim + 1 := by
    have h1 := h.axis
    simp only [Tensor.ndim, h.shape, List.length_eraseIdx_of_lt h.axis]; omega
  have hc := (checkErase_check hd hs (a := a) h.axis hn).ok ⟨h.shape, h.basetile⟩
  simp only [addSliceAsync]
  rw [throwIf_neg (by omega), M.bind_ok, throwIf_neg (by omega), M.bind_ok, throwIf_neg (by have := h.axis; simp only [Tensor.ndim]; omega), M.bind_ok]
  simp only [Int.toNat_natCast, hc, M.bind_ok]
  refine ByTiles.of_slices hd h (fun t => submitAddSlice (mOf (dst.tshape t) a) (nOf (dst.tshape t) a) (kOf (dst.tshape t) a) alpha
      (src.id, lin src.grid (t.eraseIdx a)) beta (dst.id, lin dst.grid t)) ?_ (fun t ht => ⟨rfl, ?_⟩)
  · apply sliceLoop_ok hd h (fun t => submitAddSlice (mOf (dst.tshape t) a) (nOf (dst.tshape t) a) (kOf (dst.tshape t) a) alpha
      (src.id, lin src.grid (t.eraseIdx a)) beta (dst.id, lin dst.grid t))
    intro t ht
    rfl
  · simp [submitAddSlice, task1, hid]

theorem maxsumexp_byTiles [FP α] {src dst : Tensor} {a : Nat} (hs : src.WF) (hd : dst.WF) (hid : src.id ≠ dst.id) (h : dst.MseOf src a) (redux : Bool) :
    ByTiles (maxsumexpAsync (α := α) src dst a redux) dst (fun t => (List.range (src.grid.getD a 0)).map (fun j => submitMaxsumexp
    (mOf (src.tshape (t.tail.insertIdx a j)) a) (nOf (src.tshape (t.tail.insertIdx a j)) a) (kOf (src.tshape (t.tail.insertIdx a j)) a)
    (src.id, lin src.grid (t.tail.insertIdx a j)) (dst.id, lin dst.grid t) redux)) := by
  refine ByTiles.of_loop _ ?_ ?_
  · rw [maxsumexpAsync_ok hs hd h]
    simp only [mseTasks, ← List.map_eq_flatMap]
  · intro t ht u hu
    simp only [List.mem_map, List.mem_range] at hu
    obtain ⟨l, -, rfl⟩ := hu
    exact ⟨rfl, by simp [submitMaxsumexp, task1, hid]⟩

theorem sumprod_byTiles [FP α] {src1 src2 dst : Tensor} {a : Nat} (hs : src1.WF) (hd : dst.WF) (hid : src1.id ≠ dst.id) (hid2 : src2.id ≠ dst.id)
    (h : dst.SliceOf src1 a) (hsh : src2.shape = src1.shape) (hbt : src2.basetile = src1.basetile) (alpha beta : α) (redux : Bool) :
    ByTiles (sumprodSliceAsync alpha src1 src2 beta dst a redux) dst (fun t => (List.range (src1.grid.getD a 0)).map (fun j =>
      submitSumprodSlice (mOf (src1.tshape (t.insertIdx a j)) a) (nOf (src1.tshape (t.insertIdx a j)) a) (kOf (src1.tshape (t.insertIdx a j)) a) alpha
        (src1.id, lin src1.grid (t.insertIdx a j)) (src2.id, lin src1.grid (t.insertIdx a j)) (if j = 0 then beta else 1)
        (dst.id, lin dst.grid t) redux)) := by
  have hax := h.axis
  have hn : src1.ndim = dst.ndim + 1 := by
    simp only [Tensor.ndim, h.shape, List.length_eraseIdx_of_lt h.axis]; omega
  have hg2 : src2.grid = src1.grid := by rw [Tensor.grid, hsh, hbt]; rfl
  have hc := (checkErase_check hs hd (a := a) h.axis hn).ok ⟨h.shape, h.basetile⟩
  simp only [sumprodSliceAsync]
  rw [throwIf_neg (by simp [hsh]), M.bind_ok, throwIf_neg (by omega), M.bind_ok, throwIf_neg (by omega), M.bind_ok, throwIf_neg (by omega), M.bind_ok,
    throwIf_neg (by simp only [Tensor.ndim]; omega), M.bind_ok]
  simp only [Int.toNat_natCast, hc, M.bind_ok]
  refine ByTiles.of_loop _ ?_ ?_
  · rw [sliceReduceLoop_ok hs h (fun be u => submitSumprodSlice (mOf (src1.tshape u) a) (nOf (src1.tshape u) a) (kOf (src1.tshape u) a) alpha (src1.id, lin src1.grid u)
      (src2.id, lin src1.grid u) be (dst.id, lin dst.grid (u.eraseIdx a)) redux) (fun be u hu => by
        rw [Tensor.handleL_ok (by rw [Tensor.ntiles, hg2]; exact lin_lt hu)]; rfl)]
    simp only [← List.map_eq_flatMap, erase_insert]
  · intro t ht u hu
    simp only [List.mem_map, List.mem_range] at hu
    obtain ⟨l, -, rfl⟩ := hu
    exact ⟨rfl, by simp [submitSumprodSlice, task2, hid, hid2]⟩

end NNTile
