import Verif.Lib.Reduce
/-! Reductions to a fiber. -/
namespace NNTile
open Finset
variable {α : Type}

theorem lin_mono {S I J : List Nat} (hI : I.length = S.length) (hJ : J.length = S.length) (h : ∀ p, p < S.length → I.getD p 0 ≤ J.getD p 0) :
    lin S I ≤ lin S J := by
  induction S generalizing I J with
  | nil => simp [lin]
  | cons s S ih =>
    cases I with
    | nil => simp at hI
    | cons i I => cases J with
      | nil => simp at hJ
      | cons j J =>
        have h0 := h 0 (by simp)
        have h1 := ih (I := I) (J := J) (by simpa using hI) (by simpa using hJ) (fun p hp => by simpa using h (p+1) (by simpa using hp))
        simp only [List.getD_cons_zero] at h0
        simp only [lin_cons]
        exact Nat.add_le_add h0 (Nat.mul_le_mul_left _ h1)

/-- The elements of a block that are reduced into one element of the fiber. -/
theorem sum_fiber_cells {S l' : List Nat} {a b : Nat} (hS : Pos S) (h : a + b < S.length) (hl' : InBox (fiberIdx a b S) l') {i2 c : Nat}
    (h2 : i2 < kOf S a) (hc : c < btOf S b) (hlin : lin (fiberIdx a b S) l' = i2 + kOf S a * c) (G : Nat → ℝ) :
    ∑ l ∈ (box S).filter (fun l => fiberIdx a b l = l'), G (lin S l) =
      ∑ i1 ∈ range (midOf S a b), ∑ i0 ∈ range (mOf S a), G (cell4 (mOf S a) (kOf S a) (midOf S a b) i0 i2 i1 c) := by
  have hfb : ∀ l, InBox S l → InBox (fiberIdx a b S) (fiberIdx a b l) := by
    intro l hl
    rw [← fiberIdx_eq (n := S.length) rfl (by omega), ← fiberIdx_eq (n := S.length) hl.length (by omega)]
    apply hl.proj
    intro p hp
    simp only [fiberDims, List.mem_cons, List.mem_range'] at hp
    rcases hp with rfl | ⟨i, hi, rfl⟩ <;> omega
  rw [← sum_product']
  symm
  have hlt : ∀ i1 i0, i1 < midOf S a b → i0 < mOf S a → cell4 (mOf S a) (kOf S a) (midOf S a b) i0 i2 i1 c < S.prod := by
    intro i1 i0 h1 h0
    rw [size4 h]
    exact cell4_lt h0 h2 h1 hc
  refine sum_bij (fun p _ => unlin S (cell4 (mOf S a) (kOf S a) (midOf S a b) p.2 i2 p.1 c)) ?_ ?_ ?_ ?_
  · rintro ⟨i1, i0⟩ hp
    simp only [mem_product, mem_range] at hp
    simp only [mem_filter, mem_box]
    have hin := unlin_inBox hS (cell4 (mOf S a) (kOf S a) (midOf S a b) i0 i2 i1 c)
    refine ⟨hin, ?_⟩
    obtain ⟨j0, j2, j1, d, g0, g2, g1, gd, q1, q2⟩ := view4 h hin
    rw [lin_unlin (hlt _ _ hp.1 hp.2)] at q1
    obtain ⟨-, e2, -, e4⟩ := cell4_inj hp.2 h2 hp.1 g0 g2 g1 q1
    apply lin_inj (hfb _ hin) hl'
    rw [q2, hlin, e2, e4]
  · rintro ⟨i1, i0⟩ hp ⟨j1, j0⟩ hq he
    simp only [mem_product, mem_range] at hp hq
    have := congrArg (lin S) he
    simp only at this
    rw [lin_unlin (hlt _ _ hp.1 hp.2), lin_unlin (hlt _ _ hq.1 hq.2)] at this
    obtain ⟨e1, -, e3, -⟩ := cell4_inj hp.2 h2 hp.1 hq.2 h2 hq.1 this
    rw [e1, e3]
  · intro l hl
    simp only [mem_filter, mem_box] at hl
    obtain ⟨j0, j2, j1, d, g0, g2, g1, gd, q1, q2⟩ := view4 h hl.1
    rw [hl.2, hlin] at q2
    obtain ⟨rfl, rfl⟩ := cell2_inj h2 g2 q2
    refine ⟨(j1, j0), by simp [g0, g1], ?_⟩
    simp only
    rw [← q1, unlin_lin hl.1]
  · rintro ⟨i1, i0⟩ hp
    simp only [mem_product, mem_range] at hp
    simp only
    rw [lin_unlin (hlt _ _ hp.1 hp.2)]

/-- Whether an index has zeros outside of the dimensions of the fiber. -/
theorem initFirst_iff {idx : List Nat} {n a : Nat} : initFirst idx n a = true ↔ ∀ j, j < n → j = a ∨ idx.getD j 0 = 0 := by
  simp [initFirst]

theorem proj_getD {ps l l' : List Nat} (h : proj ps l = proj ps l') {p : Nat} (hp : p ∈ ps) : l.getD p 0 = l'.getD p 0 :=
  List.map_inj_left.1 h p hp

/-- The first tile of `src` that is reduced into a tile of `dst`. -/
theorem fiber_first {src : Tensor} {a b : Nat} (hs : src.WF) (hax : a + b < src.shape.length) {i : Nat} (hi : i < src.ntiles) :
    (initFirst (src.tindex i) (src.ndim - b) a = true ↔
      ∀ i', i' < i → proj (fiberDims src.shape.length a b) (src.tindex i') ≠ proj (fiberDims src.shape.length a b) (src.tindex i)) := by
  have hbl : b ≤ src.shape.length := by omega
  generalize hps : fiberDims src.shape.length a b = ps at *
  have hmem : ∀ p, p < src.shape.length → (p ∈ ps ↔ (p = a ∨ src.ndim - b ≤ p)) := by
    intro p hp
    rw [← hps]
    simp only [fiberDims, List.mem_cons, List.mem_range', Tensor.ndim]
    constructor
    · rintro (h | ⟨i, hi, rfl⟩)
      · exact Or.inl h
      · right; omega
    · rintro (h | h)
      · exact Or.inl h
      · exact Or.inr ⟨p - (src.shape.length - b), by omega, by omega⟩
  have hlen : ∀ i, (src.tindex i).length = src.shape.length := fun i => by rw [(src.tindex_inBox i).length, hs.grid_length]
  rw [initFirst_iff]
  constructor
  · intro h0 i' hi' hp
    have : lin src.grid (src.tindex i) ≤ lin src.grid (src.tindex i') := by
      apply lin_mono (src.tindex_inBox i).length (src.tindex_inBox i').length
      intro p hp'
      rw [hs.grid_length] at hp'
      by_cases hm : p ∈ ps
      · rw [proj_getD hp hm]
      · rw [hmem p hp'] at hm
        rcases h0 p (by omega) with h | h
        · omega
        · omega
    rw [Tensor.lin_tindex hi, Tensor.lin_tindex (show i' < src.ntiles by omega)] at this
    omega
  · intro h0 j hj
    by_contra hcon
    push Not at hcon
    have hjl : j < src.shape.length := by simp only [Tensor.ndim] at hj; omega
    -- the same tile with zero at `j`
    have hin : InBox src.grid ((src.tindex i).set j 0) := by
      have hi' := src.tindex_inBox i
      generalize src.tindex i = t at hi'
      clear h0 hcon
      have : ∀ (G t : List Nat) (j : Nat), InBox G t → InBox G (t.set j 0) := by
        intro G
        induction G with
        | nil => intro t j ht; cases t <;> simp_all [InBox]
        | cons g G ih =>
          intro t j ht
          cases t with
          | nil => simp [InBox] at ht
          | cons x t =>
            cases j with
            | zero => simp only [List.set_cons_zero, InBox] at ht ⊢; exact ⟨by omega, ht.2⟩
            | succ j => simp only [List.set_cons_succ, InBox] at ht ⊢; exact ⟨ht.1, ih t j ht.2⟩
      exact this _ _ _ hi'
    have hset : ∀ p, ((src.tindex i).set j 0).getD p 0 = if p = j then 0 else (src.tindex i).getD p 0 := by
      intro p
      rw [List.getD_eq_getElem?_getD, List.getD_eq_getElem?_getD, List.getElem?_set]
      by_cases hpj : j = p
      · subst hpj; simp [hlen, hjl]
      · simp [hpj, Ne.symm hpj]
    have hle : lin src.grid ((src.tindex i).set j 0) ≤ lin src.grid (src.tindex i) := by
      apply lin_mono hin.length (src.tindex_inBox i).length
      intro p _
      rw [hset]; split <;> omega
    have hne : lin src.grid ((src.tindex i).set j 0) ≠ lin src.grid (src.tindex i) := by
      intro e
      have := lin_inj hin (src.tindex_inBox i) e
      have h3 := hset j
      rw [this, if_pos rfl] at h3
      exact hcon.2 h3
    rw [Tensor.lin_tindex hi] at hle hne
    refine h0 _ (lt_of_le_of_ne hle hne) ?_
    rw [Tensor.tindex_lin hin]
    apply List.map_congr_left
    intro p hp
    rw [hset, if_neg]
    rintro rfl
    rw [hmem p hjl] at hp
    omega

/-- Some tile of `src` is reduced into each tile of `dst`. -/
theorem fiber_some {src dst : Tensor} {a b : Nat} (hs : src.WF) (hd : dst.WF) (h : dst.FiberOf src a b) {t : List Nat} (ht : InBox dst.grid t) :
    ¬ ∀ i', i' < src.ntiles → proj (fiberDims src.shape.length a b) (src.tindex i') ≠ t := by
  have hax := h.axis
  have hP := h.projOf hs
  have hbl : b ≤ src.shape.length := by omega
  generalize hps : fiberDims src.shape.length a b = ps at *
  intro hn
  have hI := (hd.glob ht (unlin_inBox (hd.tshape_pos ht) 0)).1
  -- build an index of `src`
  let J : List Nat := (List.range src.shape.length).map (fun p => if p = a then t.getD 0 0 else
    if src.shape.length - b ≤ p then t.getD (p - (src.shape.length - b) + 1) 0 else 0)
  have hJl : J.length = src.shape.length := by simp [J]
  have hJg : ∀ p, p < src.shape.length → J.getD p 0 = if p = a then t.getD 0 0 else
    if src.shape.length - b ≤ p then t.getD (p - (src.shape.length - b) + 1) 0 else 0 := by
    intro p hp
    rw [getD_eq_getElem (by omega)]
    simp [J]
  have htl : t.length = b + 1 := by
    rw [ht.length, hP.grid hs, ← hps, proj_length]; simp [fiberDims]
  have hgr : dst.grid = src.grid.getD a 0 :: src.grid.drop (src.shape.length - b) := by
    rw [hP.grid hs, ← hps, fiberIdx_eq hs.grid_length hbl, fiberIdx, hs.grid_length]
  have hJin : InBox src.grid J := by
    have : ∀ (G J : List Nat), J.length = G.length → (∀ p, p < G.length → J.getD p 0 < G.getD p 0) → InBox G J := by
      intro G
      induction G with
      | nil => intro J hJ _; cases J <;> simp_all [InBox]
      | cons g G ih =>
        intro J hJ hp
        cases J with
        | nil => simp at hJ
        | cons j J =>
          exact ⟨by simpa using hp 0 (by simp), ih J (by simpa using hJ) (fun p hp' => by simpa using hp (p+1) (by simpa using hp'))⟩
    apply this _ _ (by rw [hJl, hs.grid_length])
    intro p hp
    rw [hs.grid_length] at hp
    rw [hJg p hp]
    split
    · next h' =>
        have := ht.getD (a := 0) (by rw [hgr]; simp)
        rw [hgr] at this
        rw [h']
        simpa using this
    · split
      · next h' =>
          have := ht.getD (a := p - (src.shape.length - b) + 1) (by rw [hgr]; simp [hs.grid_length]; omega)
          rw [hgr, List.getD_cons_succ] at this
          rw [List.getD_eq_getElem?_getD (l := List.drop _ _), List.getElem?_drop, ← List.getD_eq_getElem?_getD] at this
          rwa [show src.shape.length - b + (p - (src.shape.length - b)) = p by omega] at this
      · exact (src.grid_pos).getD (by rw [hs.grid_length]; exact hp)
  refine hn (lin src.grid J) (lin_lt hJin) ?_
  rw [Tensor.tindex_lin hJin, ← hps]
  apply List.ext_getElem
  · simp [proj, fiberDims, htl]
  · intro p h1 h2
    simp only [proj, List.getElem_map]
    have hmm : (fiberDims src.shape.length a b)[p]'(by simpa [proj] using h1) = if p = 0 then a else src.shape.length - b + (p - 1) := by
      cases p with
      | zero => simp [fiberDims]
      | succ p => simp [fiberDims]
    rw [hmm]
    cases p with
    | zero => rw [if_pos rfl, hJg a (by omega), if_pos rfl, getD_eq_getElem h2]
    | succ p =>
      rw [if_neg (by omega), hJg _ (by omega), if_neg (by omega), if_pos (by omega),
        show src.shape.length - b + (p + 1 - 1) - (src.shape.length - b) + 1 = p + 1 by omega, getD_eq_getElem h2]

/-- The loop of a fiber reduction: it runs over the tiles of `src`; the first task of each tile of `dst` uses `beta`, the others one. -/
theorem fiberReduce_run {src dst : Tensor} {a b : Nat} {s : Store ℝ} (hs : src.WF) (hd : dst.Ready s) (h : dst.FiberOf src a b)
    {body : Nat → M (List (Task1 ℝ))} (task : List Nat → Task1 ℝ)
    (he : ∀ u, InBox src.grid u → body (lin src.grid u) = .ok [task u])
    (hout : ∀ u, InBox src.grid u → (task u).out = (dst.id, lin dst.grid (proj (fiberDims src.shape.length a b) u)) ∧ ∀ r ∈ (task u).reads, r.1 ≠ dst.id)
    (alpha beta : ℝ) (F y : List Nat → ℝ) (hy : beta ≠ 0 → dst.Holds s y)
    (hfn : ∀ u, InBox src.grid u → ∀ (c : Buf ℝ) (Y : List Nat → ℝ), c.size = (dst.tshape (proj (fiberDims src.shape.length a b) u)).prod →
      ((if initFirst u (src.ndim - b) a then beta else 1) ≠ 0 → ∀ l, InBox (dst.tshape (proj (fiberDims src.shape.length a b) u)) l →
        c.data (lin (dst.tshape (proj (fiberDims src.shape.length a b) u)) l) = some (Y l)) →
      ∃ b', (task u).fn ((task u).reads.map s) ((task u).inp c) = .ok b' ∧ b'.size = c.size ∧
        ∀ l, InBox (dst.tshape (proj (fiberDims src.shape.length a b) u)) l →
          b'.data (lin (dst.tshape (proj (fiberDims src.shape.length a b) u)) l) = some ((if initFirst u (src.ndim - b) a then beta else 1) * Y l +
            alpha * ∑ l' ∈ (box (src.tshape u)).filter (fun l' => fiberIdx a b l' = l), F (globIdx src.basetile u l'))) :
    Computes (forTasks src.ntiles body) s dst (fun I => beta * y I + alpha * ∑ J ∈ (box src.shape).filter (fun J => fiberIdx a b J = I), F J) := by
  have hax := h.axis
  have hP := h.projOf hs
  have hbl : b ≤ src.shape.length := by omega
  generalize hps : fiberDims src.shape.length a b = ps at *
  have hok : forTasks src.ntiles body = .ok ((List.range src.ntiles).flatMap (fun i => [task (src.tindex i)])) := by
    apply forTasks_ok
    intro i hi
    rw [← he _ (src.tindex_inBox i), Tensor.lin_tindex hi]
  have hfirst : ∀ i, i < src.ntiles → (initFirst (src.tindex i) (src.ndim - b) a = true ↔
      ∀ i', i' < i → proj ps (src.tindex i') ≠ proj ps (src.tindex i)) := by
    intro i hi
    rw [← hps]
    exact fiber_first hs (by omega) hi
  -- the sums
  have hsum : ∀ t l, InBox dst.grid t → InBox (dst.tshape t) l →
      ∑ J ∈ (box src.shape).filter (fun J => fiberIdx a b J = globIdx dst.basetile t l), F J =
        ∑ i ∈ (range src.ntiles).filter (fun i => proj ps (src.tindex i) = t),
          ∑ l' ∈ (box (src.tshape (src.tindex i))).filter (fun l' => fiberIdx a b l' = l), F (globIdx src.basetile (src.tindex i) l') := by
    intro t l ht hl
    rw [sum_filter, sum_box_tiles hs.1 hs.2.1 hs.2.2, ← Tensor.grid, sum_box src.grid_pos, sum_filter]
    refine sum_congr rfl (fun i hi => ?_)
    have hti := src.tindex_inBox i
    have key : ∀ l', InBox (src.tshape (src.tindex i)) l' →
        (fiberIdx a b (globIdx src.basetile (src.tindex i) l') = globIdx dst.basetile t l ↔ proj ps (src.tindex i) = t ∧ fiberIdx a b l' = l) := by
      intro l' hl'
      have e1 : fiberIdx a b (globIdx src.basetile (src.tindex i) l') = globIdx dst.basetile (proj ps (src.tindex i)) (proj ps l') := by
        rw [hP.glob hs hti hl', ← hps, fiberIdx_eq ((hs.glob hti hl').1).length hbl]
      have e2 : fiberIdx a b l' = proj ps l' := by
        rw [← hps, fiberIdx_eq (by rw [hl'.length, hs.tshape_length hti]) hbl]
      rw [e1, e2]
      constructor
      · intro e
        have q1 := tileIdx_glob hd.1.2.2 (by rw [(hP.tile_inBox hs hti).length, hd.1.grid_length]) (hP.loc_inBox hs hti hl')
        have q2 := tileIdx_glob hd.1.2.2 (by rw [ht.length, hd.1.grid_length]) hl
        exact ⟨by rw [← q1.1, e, q2.1], by rw [← q1.2, e, q2.2]⟩
      · rintro ⟨h1, h2⟩; rw [h1, h2]
    by_cases hp : proj ps (src.tindex i) = t
    · rw [if_pos hp, sum_filter]
      refine sum_congr rfl (fun l' hl' => ?_)
      rw [mem_box] at hl'
      have := key l' hl'
      simp only [hp, true_and] at this
      by_cases hc : fiberIdx a b l' = l
      · rw [if_pos hc]; exact if_pos (this.2 hc)
      · rw [if_neg hc]; exact if_neg (fun h => hc (this.1 h))
    · rw [if_neg hp]
      refine sum_eq_zero (fun l' hl' => ?_)
      rw [mem_box] at hl'
      rw [if_neg]
      intro hc
      exact hp ((key l' hl').1 hc).1
  obtain ⟨s', r1, r2, r3, r4⟩ := run_tensor hd.1 hd.2 (ts := (List.range src.ntiles).flatMap (fun i => [task (src.tindex i)]))
    (fun I => some (beta * y I + alpha * ∑ J ∈ (box src.shape).filter (fun J => fiberIdx a b J = I), F J)) (by
      intro u hu
      simp only [List.mem_flatMap, List.mem_range, List.mem_singleton] at hu
      obtain ⟨i, hi, rfl⟩ := hu
      exact ⟨_, lin_lt (hP.tile_inBox hs (src.tindex_inBox i)), (hout _ (src.tindex_inBox i)).1⟩) (by
      intro u hu
      simp only [List.mem_flatMap, List.mem_range, List.mem_singleton] at hu
      obtain ⟨i, hi, rfl⟩ := hu
      exact (hout _ (src.tindex_inBox i)).2) (by
      intro t ht
      have hsz := hd.2.size ht
      obtain ⟨b', e, e1, -, e3⟩ := foldBuf_flatMap_inv (s := s) (N := src.ntiles) (gt := fun i => [task (src.tindex i)])
        (q := fun u => u.out = (dst.id, lin dst.grid t)) (b := s (dst.id, lin dst.grid t))
        (fun i c => c.size = (dst.tshape t).prod ∧
          ((∀ i', i' < i → proj ps (src.tindex i') ≠ t) → c = s (dst.id, lin dst.grid t)) ∧
          ((¬ ∀ i', i' < i → proj ps (src.tindex i') ≠ t) → ∀ l, InBox (dst.tshape t) l → c.data (lin (dst.tshape t) l) =
            some (beta * y (globIdx dst.basetile t l) + alpha * ∑ i' ∈ (range i).filter (fun i' => proj ps (src.tindex i') = t),
              ∑ l' ∈ (box (src.tshape (src.tindex i'))).filter (fun l' => fiberIdx a b l' = l), F (globIdx src.basetile (src.tindex i') l'))))
        ⟨hsz, fun _ => rfl, fun h => absurd (fun i' hi' => by omega) h⟩ (by
          rintro i hi c ⟨c1, c2, c3⟩
          have hti := src.tindex_inBox i
          by_cases hp : proj ps (src.tindex i) = t
          · have hf := hfirst i hi
            rw [hp] at hf
            by_cases hfi : initFirst (src.tindex i) (src.ndim - b) a = true
            · have hno := hf.1 hfi
              obtain ⟨b', e, e1, e2⟩ := hfn _ hti c (fun l => y (globIdx dst.basetile t l)) (by rw [hp, c1]) (by
                rw [if_pos hfi, hp]
                intro hb l hl
                rw [c2 hno]
                rw [← hd.1.get_glob ht hl s]
                exact hy hb _ (hd.1.glob ht hl).1)
              refine ⟨b', ?_, by rw [e1, c1], fun hn => absurd hp (hn i (by omega)), fun _ l hl => ?_⟩
              · rw [List.filter_cons_of_pos (by simp [(hout _ hti).1, hp]), List.filter_nil, foldBuf_single, e]
              · rw [hp, if_pos hfi] at e2
                rw [e2 l hl, range_add_one, filter_insert, if_pos hp, sum_insert (by simp)]
                rw [filter_false_of_mem (s := range i) (fun i' hi' => hno i' (mem_range.1 hi')), sum_empty, add_zero]
            · have hyes : ¬ ∀ i', i' < i → proj ps (src.tindex i') ≠ t := fun hn => hfi (hf.2 hn)
              obtain ⟨b', e, e1, e2⟩ := hfn _ hti c (fun l => _) (by rw [hp, c1]) (by
                rw [hp]
                intro _ l hl
                exact c3 hyes l hl)
              refine ⟨b', ?_, by rw [e1, c1], fun hn => absurd hp (hn i (by omega)), fun _ l hl => ?_⟩
              · rw [List.filter_cons_of_pos (by simp [(hout _ hti).1, hp]), List.filter_nil, foldBuf_single, e]
              · rw [hp, if_neg hfi] at e2
                rw [e2 l hl, range_add_one, filter_insert, if_pos hp, sum_insert (by simp)]
                congr 1
                ring
          · have hneq : ¬ ((task (src.tindex i)).out = (dst.id, lin dst.grid t)) := by
              rw [(hout _ hti).1]
              simp only [Prod.mk.injEq, true_and]
              intro e
              exact hp (lin_inj (hP.tile_inBox hs hti) ht e)
            refine ⟨c, ?_, c1, ?_, ?_⟩
            · rw [List.filter_cons_of_neg (by simpa using hneq)]; rfl
            · intro hn
              exact c2 (fun i' hi' => hn i' (by omega))
            · intro hn l hl
              rw [c3 _ l hl, range_add_one, filter_insert, if_neg hp]
              intro hn'
              apply hn
              intro i' hi'
              rcases Nat.lt_succ_iff_lt_or_eq.1 hi' with h | rfl
              · exact hn' i' h
              · exact hp)
      refine ⟨b', e, by rw [e1, hsz], ?_⟩
      intro l hl
      rw [hsum t l ht hl]
      refine e3 ?_ l hl
      rw [← hps]
      exact fiber_some hs hd.1 h ht)
  exact ⟨_, s', hok, r1, r2, r3, hd.1, r4⟩

end NNTile

namespace NNTile
open Finset

/-- A double loop writing each cell of a matrix once, in any reading order. -/
theorem sumFiber_run {m n k bt : Nat} {alpha beta : ℝ} {src o : Buf ℝ} {x y : Nat → ℝ} (ho : o.size = k * bt) (hs : src.size = m * (k * (n * bt)))
    (hx : ∀ j, j < m * (k * (n * bt)) → src.data j = some (x j)) (hy : beta ≠ 0 → ∀ j, j < k * bt → o.data j = some (y j)) :
    ∃ b', sumFiberKernel m n k bt alpha src beta o = .ok b' ∧ b'.size = o.size ∧ ∀ i2 b, i2 < k → b < bt →
      b'.data (i2 + k * b) = some (beta * y (i2 + k * b) + alpha * ∑ i1 ∈ range n, ∑ i0 ∈ range m, x (cell4 m k n i0 i2 i1 b)) := by
  unfold sumFiberKernel
  refine forN2_puts (m := k) (n := bt) ho (fun i2 b => beta * y (i2 + k * b) + alpha * ∑ i1 ∈ range n, ∑ i0 ∈ range m, x (cell4 m k n i0 i2 i1 b)) ?_
  intro b i2 hb h2 d hd he
  rw [kahan_sum2 (x := fun i1 i0 => x (cell4 m k n i0 i2 i1 b)) (by
    intro i1 i0 h1 h0
    rw [pos4]
    exact Buf.rd_ok (hs ▸ cell4_lt h0 h2 h1 hb) (hx _ (cell4_lt h0 h2 h1 hb))), M.bind_ok, Nat.mul_comm b k]
  exact storeSum_real hd (fun hb' => he.trans (hy hb' _ (cell2_lt h2 hb)))

theorem sumprodFiber_run {m n k : Nat} {alpha beta : ℝ} {src src2 o : Buf ℝ} {x x' y : Nat → ℝ} (ho : o.size = k) (hs : src.size = m * (k * n))
    (hx : ∀ j, j < m * (k * n) → src.data j = some (x j)) (hs2 : src2.size = m * (k * n))
    (hx2 : ∀ j, j < m * (k * n) → src2.data j = some (x' j)) (hy : beta ≠ 0 → ∀ j, j < k → o.data j = some (y j)) :
    ∃ b', sumprodFiberKernel m n k alpha src src2 beta o = .ok b' ∧ b'.size = o.size ∧ ∀ i2, i2 < k →
      b'.data i2 = some (beta * y i2 + alpha * ∑ i1 ∈ range n, ∑ i0 ∈ range m, x (i0 + m * (i2 + k * i1)) * x' (i0 + m * (i2 + k * i1))) := by
  unfold sumprodFiberKernel
  have := forN_put (n := k) (b := o) (f := fun i2 dst => do
    let p ← forN n (fun i1 p =>
      forN m (fun i0 p => do
        let x ← src.rd ((i1*k + i2)*m + i0)
        let y ← src2.rd ((i1*k + i2)*m + i0)
        .ok (p.1 + x * y, p.2)) p) ((0 : ℝ), (0 : ℝ))
    storeSum alpha beta i2 p dst)
    (fun i2 => beta * y i2 + alpha * ∑ i1 ∈ range n, ∑ i0 ∈ range m, x (i0 + m * (i2 + k * i1)) * x' (i0 + m * (i2 + k * i1))) (by
    intro i2 h2 d hd he
    rw [plain_sum2 (x := fun i1 i0 => x (i0 + m * (i2 + k * i1))) (x' := fun i1 i0 => x' (i0 + m * (i2 + k * i1)))
      (fun i1 i0 h1 h0 => by rw [pos3f]; exact Buf.rd_ok (hs ▸ cell3_lt h0 h2 h1) (hx _ (cell3_lt h0 h2 h1)))
      (fun i1 i0 h1 h0 => by rw [pos3f]; exact Buf.rd_ok (hs2 ▸ cell3_lt h0 h2 h1) (hx2 _ (cell3_lt h0 h2 h1))), M.bind_ok]
    exact storeSum_real (by omega) (fun hb' => he.trans (hy hb' _ h2)))
  exact ⟨_, this, rfl, fun i2 h2 => by simp only [if_pos h2]⟩

end NNTile
