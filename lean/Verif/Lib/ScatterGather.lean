import Verif.Lib.Copy
namespace NNTile
variable {α : Type}

/-- Copying tile by tile between tensors with equal shapes and basetiles. -/
theorem copyTask_ok {s : Store α} {a b : Handle} (hsz : (s a).size = (s b).size) :
    foldBuf s [submitCopy a b] (s b) = .ok ⟨(s b).size, fun k => if k < (s a).size then (s a).data k else none⟩ := by
  simp only [foldBuf, submitCopy, Task1.inp, List.map_cons, List.map_nil, if_true, copyKernel, Buf.undef_size, hsz, le_refl, M.bind_ok,
    Buf.undef_data]

theorem scatterAsync_spec {src dst : Tensor} (hs : src.WF) (hd : dst.WF) (hid : src.id ≠ dst.id) (hsh : src.shape = dst.shape)
    (h1 : src.ntiles = 1) {s : Store α} (has : src.Alloc s) (had : dst.Alloc s) (hdef : src.Defined s) :
    ∃ tasks s', scatterAsync src dst = .ok tasks ∧ runAll1 tasks s = .ok s' ∧
      (∀ I, InBox dst.shape I → dst.get s' I = src.get s I) ∧ OnlyChanged [dst.id] s s' ∧ dst.Alloc s' := by
  obtain ⟨ets, eget⟩ := hs.single h1
  have hsz : (s (src.id, 0)).size = src.shape.prod := by rw [has 0 (by omega), ets]
  simp only [scatterAsync]
  rw [throwIf_neg (by simpa using h1), throwIf_neg (by simpa using hsh)]
  simp only [Tensor.handleL_ok (T := src) (i := 0) (by omega), M.bind_ok]
  by_cases h2 : dst.ntiles = 1
  · obtain ⟨etd, egetd⟩ := hd.single h2
    have hdz : (s (dst.id, 0)).size = dst.shape.prod := by rw [had 0 (by omega), etd]
    rw [if_pos h2, Tensor.handleL_ok (by omega), M.bind_ok]
    have := run_tilewise hd had (gt := fun _ => [submitCopy (src.id, 0) (dst.id, 0)]) (fun I => src.get s I)
      (by intro i hi t ht; simp at ht; subst ht; have : i = 0 := by omega
          subst this; rfl)
      (by intro i hi t ht; simp at ht; subst ht; simpa [submitCopy] using hid)
      (by
        intro t ht
        have hl : lin dst.grid t = 0 := by have := lin_lt ht; have h3 : dst.grid.prod = 1 := h2; omega
        have ht0 : dst.tshape t = dst.shape := by rw [← Tensor.tshapeL_lin ht, hl, etd]
        rw [hl]
        refine ⟨_, copyTask_ok (by rw [hsz, hdz, hsh]), rfl, ?_⟩
        intro l hl'
        have hg := (hd.glob ht hl').1
        rw [eget s _ (hsh ▸ hg)]
        have hI := egetd s _ hg
        rw [hd.get_glob ht hl', hl] at hI
        have hgl : lin dst.shape (globIdx dst.basetile t l) = lin dst.shape l := by
          obtain ⟨-, e2⟩ := single_tileShape hd.1 hd.2.1 hd.2.2 h2
          obtain ⟨-, b⟩ := e2 _ hg
          have hT : t.length = dst.shape.length := by rw [ht.length, hd.grid_length]
          rw [(tileIdx_glob hd.2.2 hT hl').2] at b
          rw [← b]
        simp only
        rw [hsh, hgl, ht0, if_pos]
        rw [hsz, hsh, ← hgl]; exact lin_lt hg)
    have hr : (List.range dst.ntiles).flatMap (fun _ => [submitCopy (α := α) (src.id, 0) (dst.id, 0)]) = [submitCopy (src.id, 0) (dst.id, 0)] := by
      rw [h2]; rfl
    rw [hr] at this
    obtain ⟨s', a, b, c, d⟩ := this
    exact ⟨_, s', rfl, a, b, c, d⟩
  · rw [if_neg h2]
    have hgl : dst.grid.length = src.ndim := by rw [hd.grid_length, ← hsh]; rfl
    let gt : Nat → List (Task1 α) := fun i => [submitSubcopy (mulIdx (unlin dst.grid i) dst.basetile) (strideFrom 1 (src.tshapeL 0))
      (List.replicate src.ndim 0) (strideFrom 1 (dst.tshapeL i)) (dst.tshapeL i) (src.id, 0) (dst.id, i) .W]
    have hloop := odoLoop_ok (next := gridNext dst.grid)
      (body := fun i index => do
        let dstH ← dst.handleL i
        .ok [submitSubcopy (α := α) (mulIdx index dst.basetile) (strideFrom 1 (src.tshapeL 0)) (List.replicate src.ndim 0)
          (strideFrom 1 (dst.tshapeL i)) (dst.tshapeL i) (src.id, 0) dstH .W])
      (S := fun i => unlin dst.grid i) (g := gt) (n := dst.ntiles)
      (fun i hi => gridNext_spec dst.grid_pos hi)
      (by intro i hi; simp only [Tensor.handleL_ok hi, M.bind_ok]; rfl)
    rw [unlin_zero, hgl] at hloop
    rw [hloop]
    have hnd : src.ndim ≠ 0 := by
      intro h0
      apply h2
      have : dst.grid = [] := List.eq_nil_of_length_eq_zero (by rw [hgl, h0])
      simp [Tensor.ntiles, this]
    obtain ⟨s', a, b, c, d⟩ := run_tilewise hd had (gt := gt) (fun I => src.get s I)
      (by intro i hi t ht; simp [gt] at ht; subst ht; rfl)
      (by intro i hi t ht; simp [gt] at ht; subst ht; simpa [submitSubcopy] using hid)
      (by
        intro t ht
        have hT : t.length = dst.shape.length := by rw [ht.length, hd.grid_length]
        have htl : (dst.tshape t).length = dst.shape.length := hd.tshape_length ht
        have hti : unlin dst.grid (lin dst.grid t) = t := unlin_lin ht
        obtain ⟨b', e, k1, k2, -⟩ := subcopy_tiles (α := α) (S := src.shape) (D := dst.tshape t) (srcStart := mulIdx t dst.basetile)
          (dstStart := List.replicate src.ndim 0) (box := dst.tshape t) (src := s (src.id, 0))
          (dst := Buf.undef (s (dst.id, lin dst.grid t)).size)
          (by intro h0; rw [h0] at htl; apply hnd; simp [Tensor.ndim, hsh, ← htl])
          (hd.tshape_pos ht)
          (by rw [mulIdx_length (by rw [hT, hd.2.2]), hd.2.2, htl])
          (by rw [List.length_replicate, htl, Tensor.ndim, hsh])
          (by intro j hj; rw [← globIdx_eq_addIdx, hsh]; exact (hd.glob ht hj).1)
          (by intro j hj; rw [addIdx_replicate_zero (by rw [hj.length, htl, Tensor.ndim, hsh])]; exact hj)
          hsz (by rw [Buf.undef_size, had.size ht])
          (by
            intro j hj
            have hg := (hd.glob ht hj).1
            rw [← globIdx_eq_addIdx]
            have := hdef _ (hsh ▸ hg)
            rwa [eget s _ (hsh ▸ hg)] at this)
        refine ⟨b', ?_, k1, ?_⟩
        · simp only [gt, foldBuf, submitSubcopy, Task1.inp, List.map_cons, List.map_nil, if_true, hti, Tensor.tshapeL_lin ht, ets, e, M.bind_ok]
        · intro l hl
          have := k2 l hl
          rw [addIdx_replicate_zero (by rw [hl.length, htl, Tensor.ndim, hsh]), ← globIdx_eq_addIdx] at this
          rw [this, eget s _ (hsh ▸ (hd.glob ht hl).1)])
    exact ⟨_, s', rfl, a, b, c, d⟩

theorem gatherAsync_spec {src dst : Tensor} (hs : src.WF) (hd : dst.WF) (hid : src.id ≠ dst.id) (hsh : src.shape = dst.shape)
    (h1 : dst.ntiles = 1) {s : Store α} (has : src.Alloc s) (had : dst.Alloc s) (hdef : src.Defined s) :
    ∃ tasks s', gatherAsync src dst = .ok tasks ∧ runAll1 tasks s = .ok s' ∧
      (∀ I, InBox dst.shape I → dst.get s' I = src.get s I) ∧ OnlyChanged [dst.id] s s' ∧ dst.Alloc s' := by
  by_cases h2 : src.ntiles = 1
  · -- both are single tiles: the same task as scatter
    obtain ⟨tasks, s', a, b⟩ := scatterAsync_spec hs hd hid hsh h2 has had hdef
    have e : gatherAsync (α := α) src dst = scatterAsync src dst := by
      simp only [gatherAsync, scatterAsync]
      rw [throwIf_neg (show ¬ (dst.ntiles ≠ 1) by simpa using h1), throwIf_neg (show ¬ (src.shape ≠ dst.shape) by simpa using hsh),
        throwIf_neg (show ¬ (src.ntiles ≠ 1) by simpa using h2)]
      simp only [if_pos h1, if_pos h2, Tensor.handleL_ok (T := src) (i := 0) (by omega),
        Tensor.handleL_ok (T := dst) (i := 0) (by omega), M.bind_ok]
    exact ⟨tasks, s', e ▸ a, b⟩
  · obtain ⟨etd, egetd⟩ := hd.single h1
    have hdz : (s (dst.id, 0)).size = dst.shape.prod := by rw [had 0 (by omega), etd]
    simp only [gatherAsync]
    rw [throwIf_neg (by simpa using h1), throwIf_neg (by simpa using hsh)]
    have hnt := src.ntiles_pos
    simp only [if_neg h2, Tensor.handleL_ok (T := src) (i := 0) hnt,
      Tensor.handleL_ok (T := dst) (i := 0) (by omega), M.bind_ok]
    have hgl : src.grid.length = src.ndim := by rw [hs.grid_length]; rfl
    have hzero : unlin src.grid 0 = List.replicate src.ndim 0 := by rw [unlin_zero, hgl]
    let task : Nat → WMode → Task1 α := fun i m => submitSubcopy (List.replicate src.ndim 0) (strideFrom 1 (src.tshapeL i))
      (mulIdx (unlin src.grid i) src.basetile) (strideFrom 1 (dst.tshapeL 0)) (src.tshapeL i) (src.id, i) (dst.id, 0) m
    have hloop := odoLoop1_ok (next := gridNext src.grid)
      (body := fun i index => do
        let srcH ← src.handleL i
        .ok [submitSubcopy (α := α) (List.replicate src.ndim 0) (strideFrom 1 (src.tshapeL i)) (mulIdx index src.basetile)
          (strideFrom 1 (dst.tshapeL 0)) (src.tshapeL i) srcH (dst.id, 0) .RW])
      (S := fun i => unlin src.grid i) (g := fun i => [task i .RW]) (n := src.ntiles)
      (fun i hi => gridNext_spec src.grid_pos hi)
      (by intro i hi; simp only [Tensor.handleL_ok hi, M.bind_ok]; rfl)
    rw [hzero] at hloop
    rw [hloop, M.bind_ok]
    have hmz : mulIdx (List.replicate src.ndim 0) src.basetile = List.replicate src.ndim 0 := by
      have e2 : ∀ (B : List Nat) n, n = B.length → mulIdx (List.replicate n 0) B = List.replicate n 0 := by
        intro B
        induction B with
        | nil => rintro n rfl; rfl
        | cons b B ih => rintro n rfl; simp [List.replicate_succ, mulIdx, ih]
      exact e2 _ _ (by rw [hs.2.2]; rfl)
    have hfirst : submitSubcopy (α := α) (List.replicate src.ndim 0) (strideFrom 1 (src.tshapeL 0)) (List.replicate src.ndim 0)
        (strideFrom 1 (dst.tshapeL 0)) (src.tshapeL 0) (src.id, 0) (dst.id, 0) .W = task 0 .W := by
      simp only [task, hzero, hmz]
    rw [hfirst]
    have hnd : src.ndim ≠ 0 := by
      intro h0
      apply h2
      have : src.grid = [] := List.eq_nil_of_length_eq_zero (by rw [hgl, h0])
      simp [Tensor.ntiles, this]
    have hfm : (List.range' 1 (src.ntiles - 1)).flatMap (fun i => [task i .RW]) = (List.range' 1 (src.ntiles - 1)).map (fun i => task i .RW) := by
      induction List.range' 1 (src.ntiles - 1) with
      | nil => rfl
      | cons a l ih => simp [ih]
    rw [hfm]
    set ts := task 0 .W :: (List.range' 1 (src.ntiles - 1)).map (fun i => task i .RW) with hts
    have hmem : ∀ t ∈ ts, ∃ i m, i < src.ntiles ∧ t = task i m := by
      intro t ht
      rcases List.mem_cons.1 ht with rfl | ht
      · exact ⟨0, .W, hnt, rfl⟩
      · simp only [List.mem_map, List.mem_range'_1] at ht
        obtain ⟨i, hi, rfl⟩ := ht
        exact ⟨i, .RW, by omega, rfl⟩
    -- effect of one task
    have hstep : ∀ t ∈ ts, ∀ b : Buf α, b.size = dst.shape.prod → ∃ b', t.fn (t.reads.map s) b = .ok b' ∧ b'.size = dst.shape.prod ∧
        ∀ l, InBox dst.shape l → (t.reads = [src.hOf l] → b'.data (lin dst.shape l) = src.get s l) ∧
          (¬ t.reads = [src.hOf l] → b'.data (lin dst.shape l) = b.data (lin dst.shape l)) := by
      intro t ht b hb
      obtain ⟨i, m, hi, rfl⟩ := hmem t ht
      have htb := src.tindex_inBox i
      have hT : (src.tindex i).length = src.shape.length := by rw [htb.length, hs.grid_length]
      have htl : (src.tshapeL i).length = src.shape.length := hs.tshape_length htb
      have hll : lin src.grid (src.tindex i) = i := Tensor.lin_tindex hi
      obtain ⟨b', e, k1, k2, k3⟩ := subcopy_tiles (α := α) (S := src.tshapeL i) (D := dst.shape) (srcStart := List.replicate src.ndim 0)
        (dstStart := mulIdx (unlin src.grid i) src.basetile) (box := src.tshapeL i) (src := s (src.id, i)) (dst := b)
        (by intro h0; rw [h0] at htl; exact hnd htl.symm)
        (hs.tshape_pos htb)
        (by rw [List.length_replicate, htl]; rfl)
        (by rw [mulIdx_length (by rw [hs.2.2]; exact hT), hs.2.2, htl])
        (by intro j hj; rw [addIdx_replicate_zero (by rw [hj.length, htl]; rfl)]; exact hj)
        (by intro j hj; rw [← globIdx_eq_addIdx, ← hsh]; exact (hs.glob htb hj).1)
        (has i hi) hb
        (by
          intro j hj
          rw [addIdx_replicate_zero (by rw [hj.length, htl]; rfl)]
          have := hdef _ (hs.glob htb hj).1
          rw [hs.get_glob htb hj, hll] at this
          exact this)
      refine ⟨b', ?_, by rw [k1, hb], ?_⟩
      · simp only [task, submitSubcopy, List.map_cons, List.map_nil, etd]
        exact e
      · intro l hl
        have hreads : (task i m).reads = [(src.id, i)] := rfl
        rw [hreads]
        have hls : InBox src.shape l := hsh ▸ hl
        constructor
        · intro h
          simp only [List.cons.injEq, and_true, Tensor.hOf, Prod.mk.injEq, true_and] at h
          have hti : tileIdx src.basetile l = src.tindex i := by
            rw [h, Tensor.tindex_lin (hs.tileIdx_inBox hls)]
          have hli := hs.locIdx_inBox hls
          rw [hti] at hli
          have := k2 _ hli
          rw [addIdx_replicate_zero (by rw [hli.length]; exact htl), ← globIdx_eq_addIdx] at this
          have hg : globIdx src.basetile (src.tindex i) (locIdx src.basetile l) = l := by
            rw [← hti, globIdx_tile_loc (by rw [hls.length, hs.2.2])]
          have hg' : globIdx src.basetile (unlin src.grid i) (locIdx src.basetile l) = l := hg
          rw [hg'] at this
          rw [this]
          simp only [Tensor.get, Tensor.hOf, Tensor.oOf, hti, hll]
          rfl
        · intro h
          apply k3 l hl
          intro j hj heq
          apply h
          rw [← globIdx_eq_addIdx] at heq
          have := (hs.glob htb hj).2.1
          rw [hll] at this
          rw [show l = globIdx src.basetile (src.tindex i) j from heq, this]
    obtain ⟨s', a, b, c, d⟩ := run_tensor hd had (ts := ts) (fun I => src.get s I)
      (by intro t ht; obtain ⟨i, m, hi, rfl⟩ := hmem t ht; exact ⟨0, by omega, rfl⟩)
      (by intro t ht; obtain ⟨i, m, hi, rfl⟩ := hmem t ht; simpa [task, submitSubcopy] using hid)
      (by
        intro t ht
        have hl : lin dst.grid t = 0 := by have := lin_lt ht; have h3 : dst.grid.prod = 1 := h1; omega
        have ht0 : dst.tshape t = dst.shape := by rw [← Tensor.tshapeL_lin ht, hl, etd]
        rw [hl]
        have hfil : ts.filter (fun u => u.out = (dst.id, 0)) = ts := by
          rw [List.filter_eq_self]
          intro u hu
          obtain ⟨i, m, hi, rfl⟩ := hmem u hu
          simp [task, submitSubcopy]
        rw [hfil]
        obtain ⟨b', e, z, cov⟩ := foldBuf_cover_first (s := s) (N := dst.shape.prod) (D := dst.shape)
          (P := fun t l => t.reads = [src.hOf l]) (v := fun l => src.get s l) (t0 := task 0 .W)
          (ts := (List.range' 1 (src.ntiles - 1)).map (fun i => task i .RW))
          (by intro t ht; simp at ht; obtain ⟨i, hi, rfl⟩ := ht; simp [task, submitSubcopy]) hstep (s (dst.id, 0)) hdz
        refine ⟨b', e, by rw [z, hdz], ?_⟩
        intro l hl'
        have hg := (hd.glob ht hl').1
        have hgl : globIdx dst.basetile t l = l := by
          obtain ⟨-, e2⟩ := single_tileShape hd.1 hd.2.1 hd.2.2 h1
          obtain ⟨-, b⟩ := e2 _ hg
          have hT : t.length = dst.shape.length := by rw [ht.length, hd.grid_length]
          rw [(tileIdx_glob hd.2.2 hT hl').2] at b
          exact b.symm
        rw [ht0] at hl' ⊢
        rw [hgl]
        apply (cov l hl').1
        have hls : InBox src.shape l := hsh ▸ hl'
        have hlt := hs.hOf_lt hls
        by_cases h0 : (src.hOf l).2 = 0
        · refine ⟨task 0 .W, by simp, ?_⟩
          show [(src.id, 0)] = [src.hOf l]
          rw [← h0]; rfl
        · refine ⟨task (src.hOf l).2 .RW, ?_, rfl⟩
          refine List.mem_cons_of_mem _ (List.mem_map.2 ⟨(src.hOf l).2, ?_, rfl⟩)
          rw [List.mem_range'_1]; omega)
    exact ⟨_, s', rfl, a, b, c, d⟩

end NNTile
