import Verif.Lib.EmbeddingBackward
import Verif.Lib.Seq
import Verif.Lib.Store
/-!
# C22 — `embedding`, `embedding_backward`

`EmbedFit` and `TokensOk` are defined in `Verif/Spec/Embedding.lean`. `I.getD a 0` is entry number `a` of the index `I`, `I.eraseIdx a` is `I` without it.
-/
namespace NNTile
open Finset

/-- `embedding` copies, bit by bit, the vector of the token of each place, whatever `embed` contained before. -/
theorem C22_embedding {α : Type} [FP α] {index vocab embed : Tensor} {a : Nat} {s : Store α} (asIdx : α → Int) (hi : index.Ready s) (hv : vocab.Ready s)
    (he : embed.Ready s) (hid : index.id ≠ embed.id) (hid2 : vocab.id ≠ embed.id) (h : EmbedFit index vocab embed a) (w y : List Nat → α)
    (hw : index.Holds s w) (hy : vocab.Holds s y) (hok : TokensOk index vocab asIdx w) :
    Computes (embeddingAsync asIdx index vocab embed a) s embed (fun I => y [I.getD a 0, (asIdx (w (I.eraseIdx a))).toNat]) := by
  have hsl := h.index
  have hax := hsl.axis
  let task : List Nat → Nat → Task1 α := fun t jj => submitEmbedding asIdx (mOf (embed.tshape t) a) (nOf (embed.tshape t) a) (kOf (embed.tshape t) a)
    (jj * vocab.basetile.getD 0 0) ((vocab.tshape [vocabStart vocab embed t a + jj, 0]).getD 0 0) (index.id, lin index.grid (t.eraseIdx a))
    (vocab.id, vocabStart vocab embed t a + jj) (embed.id, lin embed.grid t)
  refine computes_tiles he (fun t => submitClear (embed.id, lin embed.grid t) ::
    (List.range (vocabPerEmbed vocab (embed.tshape t) a)).flatMap (fun jj => [task t jj])) ?_ _ ?_ ?_
  · simp only [embeddingAsync]
    rw [h.check hi.1 hv.1 he.1, M.bind_ok]
    simp only [Int.toNat_natCast]
    apply forTasks_ok
    intro i hi'
    have ht := embed.tindex_inBox i
    rw [Tensor.handleL_ok hi', M.bind_ok]
    rw [Tensor.handleAt_ok (hsl.tile_inBox he.1 ht), M.bind_ok]
    rw [forTasks_ok (g := fun jj => [task (embed.tindex i) jj]), M.bind_ok, Tensor.lin_tindex hi']
    · rfl
    · intro jj hjj
      obtain ⟨h1, -⟩ := h.arith hv.1 he.1 ht hjj
      have e : vocab.tshapeL (vocabStart vocab embed (embed.tindex i) a + jj) = vocab.tshape [vocabStart vocab embed (embed.tindex i) a + jj, 0] := by
        rw [Tensor.tshapeL, h.tindex hv.1 h1]
      rw [Tensor.handleL_ok h1, M.bind_ok, e]
      show _ = Except.ok [submitEmbedding _ _ _ _ _ _ _ _ _]
      rw [Tensor.lin_tindex hi']
      rfl
  · intro t ht u hu
    simp only [List.mem_cons, List.mem_flatMap, List.mem_range, List.not_mem_nil, or_false] at hu
    rcases hu with rfl | ⟨jj, -, rfl⟩
    · exact ⟨rfl, by simp [submitClear, task0]⟩
    · exact ⟨rfl, by simp [task, submitEmbedding, task2, hid, hid2]⟩
  · intro t ht
    have hsz := he.2.size ht
    have hax' : a < (embed.tshape t).length := by rw [he.1.tshape_length ht]; exact hax
    have hte := hsl.tile_inBox he.1 ht
    rw [size3 hax'] at hsz
    have hisz : (s (index.id, lin index.grid (t.eraseIdx a))).size = mOf (embed.tshape t) a * nOf (embed.tshape t) a := by
      rw [hi.2.size hte, hsl.tshape he.1 ht, prod_erase]; rfl
    have hidat : ∀ j, j < mOf (embed.tshape t) a * nOf (embed.tshape t) a → (s (index.id, lin index.grid (t.eraseIdx a))).data j =
        some (w (globIdx index.basetile (t.eraseIdx a) (unlin (index.tshape (t.eraseIdx a)) j))) := by
      intro j hj
      have := Tensor.Holds.same rfl rfl hi.1 hw hte (unlin_inBox (hi.1.tshape_pos hte) j)
      rwa [lin_unlin (by rw [hsl.tshape he.1 ht, prod_erase]; exact hj)] at this
    have hitok : ∀ j, j < mOf (embed.tshape t) a * nOf (embed.tshape t) a →
        0 ≤ asIdx (w (globIdx index.basetile (t.eraseIdx a) (unlin (index.tshape (t.eraseIdx a)) j))) ∧
        asIdx (w (globIdx index.basetile (t.eraseIdx a) (unlin (index.tshape (t.eraseIdx a)) j))) < vocab.shape.getD 1 0 := by
      intro j hj
      exact hok _ (hi.1.glob hte (unlin_inBox (hi.1.tshape_pos hte) j)).1
    obtain ⟨b', e1, e2, e3⟩ := foldBuf_range_inv (s := s) (N := vocabPerEmbed vocab (embed.tshape t) a) (task := task t)
      (b := ⟨(s (embed.id, lin embed.grid t)).size, fun k => if k < (s (embed.id, lin embed.grid t)).size then some 0 else none⟩)
      (fun jj c => c.size = mOf (embed.tshape t) a * (kOf (embed.tshape t) a * nOf (embed.tshape t) a) ∧
        ∀ l, InBox (embed.tshape t) l → l.getD a 0 < jj * vocab.basetile.getD 0 0 → c.data (lin (embed.tshape t) l) =
          some (y [(globIdx embed.basetile t l).getD a 0, (asIdx (w ((globIdx embed.basetile t l).eraseIdx a))).toNat]))
      ⟨hsz, fun l _ hlt => by simp at hlt⟩
      (by
        intro jj hjj c ⟨hc1, hc2⟩
        obtain ⟨g1, g2, g3, g4⟩ := h.arith hv.1 he.1 ht hjj
        obtain ⟨v1, v2⟩ := vocab_tile hv h hy g1
        set ks := (vocab.tshape [vocabStart vocab embed t a + jj, 0]).getD 0 0 with hks
        set vb := vocab.basetile.getD 0 0 with hvb
        obtain ⟨c', f1, f2, f3, f4⟩ := embedding_run (asIdx := asIdx) (k0 := jj * vb) (ks := ks) (k := kOf (embed.tshape t) a) (o := c)
          (by simp only [kOf]; omega) hc1 hisz hidat v1 v2 hitok
        refine ⟨c', f1, by rw [f2, hc1], ?_⟩
        intro l hl hlt
        obtain ⟨i1, i0, i2, q1, q0, q2, r1, r2, r3⟩ := view3 hax' hl
        have hgl := getD_globIdx (p := a) (B := embed.basetile) (T := t) (L := l) (by rw [ht.length, he.1.grid_length, he.1.2.2])
          (by rw [hl.length, he.1.tshape_length ht, he.1.2.2]) (by rw [he.1.2.2]; exact hax)
        by_cases hold : l.getD a 0 < jj * vb
        · rw [r1, f4 i1 i0 i2 q1 q0 q2 (by omega), ← r1]
          exact hc2 l hl hold
        · have hlk := hl.getD hax'
          rw [Nat.add_mul] at hlt
          have f := f3 i1 (l.getD a 0 - jj * vb) i2 q1 (by omega) q2
          rw [show jj * vb + (l.getD a 0 - jj * vb) = l.getD a 0 by omega] at f
          rw [r1, r3, f, cell2_mod (by omega), cell2_div (by omega), hgl, g2]
          have hle : InBox (index.tshape (t.eraseIdx a)) (l.eraseIdx a) := by rw [hsl.tshape he.1 ht]; exact hl.erase a
          rw [← r2, ← hsl.tshape he.1 ht, unlin_lin hle, hsl.glob he.1 ht hl, show t.getD a 0 * embed.basetile.getD a 0 + jj * vb + (l.getD a 0 - jj * vb) =
            t.getD a 0 * embed.basetile.getD a 0 + l.getD a 0 by omega])
    refine ⟨b', ?_, by rw [e2, hsz], ?_⟩
    · rw [foldBuf, show (submitClear (embed.id, lin embed.grid t) : Task1 α).fn _ _ = .ok _ from rfl, M.bind_ok]
      exact e1
    · intro l hl
      refine e3 l hl ?_
      have hlk := hl.getD hax'
      have := (h.vocab_eq hv.1)
      obtain ⟨K, V, b, B, hs, hb, -, -, -, -, -, hbp⟩ := this
      simp only [vocabPerEmbed, hb, List.getD_cons_zero]
      have h3 := Nat.lt_div_mul_add (a := (embed.tshape t).getD a 0 - 1) hbp
      rw [Nat.add_mul]
      omega

/-- The task of `embedding_backward` for tile `t` of `embed` and the tile of `vocab` number `jj` of those that belong to it. -/
private noncomputable def bwdTask (asIdx : ℝ → Int) (index embed vocab : Tensor) (a : Nat) (redux : Bool) (t : List Nat) (jj : Nat) : Task1 ℝ :=
  submitEmbeddingBackward asIdx (mOf (embed.tshape t) a) (nOf (embed.tshape t) a) (kOf (embed.tshape t) a)
    (jj * vocab.basetile.getD 0 0) ((vocab.tshape [vocabStart vocab embed t a + jj, 0]).getD 0 0) (index.id, lin index.grid (t.eraseIdx a))
    (embed.id, lin embed.grid t) (vocab.id, vocabStart vocab embed t a + jj) redux

private theorem bwd_ok {index embed vocab : Tensor} {a : Nat} {s : Store ℝ} (asIdx : ℝ → Int) (redux : Bool) (hi : index.Ready s) (hv : vocab.Ready s)
    (he : embed.Ready s) (h : EmbedFit index vocab embed a) :
    embeddingBackwardAsync asIdx index embed vocab a redux = .ok ((List.range embed.ntiles).flatMap (fun i =>
      (List.range (vocabPerEmbed vocab (embed.tshape (embed.tindex i)) a)).flatMap (fun jj => [bwdTask asIdx index embed vocab a redux (embed.tindex i) jj]))) := by
  simp only [embeddingBackwardAsync]
  rw [h.check hi.1 hv.1 he.1, M.bind_ok]
  simp only [Int.toNat_natCast]
  apply forTasks_ok
  intro i hi'
  have ht := embed.tindex_inBox i
  rw [Tensor.handleL_ok hi', M.bind_ok]
  rw [Tensor.handleAt_ok (h.index.tile_inBox he.1 ht), M.bind_ok]
  apply forTasks_ok
  intro jj hjj
  obtain ⟨h1, -⟩ := h.arith hv.1 he.1 ht hjj
  have e : vocab.tshapeL (vocabStart vocab embed (embed.tindex i) a + jj) = vocab.tshape [vocabStart vocab embed (embed.tindex i) a + jj, 0] := by
    rw [Tensor.tshapeL, h.tindex hv.1 h1]
  rw [Tensor.handleL_ok h1, M.bind_ok, e]
  show _ = Except.ok [submitEmbeddingBackward _ _ _ _ _ _ _ _ _ _]
  rw [Tensor.lin_tindex hi']
  rfl

/-- One task: it adds, and what it adds. -/
private theorem bwd_task {index embed vocab : Tensor} {a : Nat} {s : Store ℝ} {asIdx : ℝ → Int} {redux : Bool} (hi : index.Ready s) (hv : vocab.Ready s)
    (he : embed.Ready s) (h : EmbedFit index vocab embed a) {w x : List Nat → ℝ}
    (hw : index.Holds s w) (hx : embed.Holds s x) (hok : TokensOk index vocab asIdx w) {t : List Nat} (ht : InBox embed.grid t) {jj : Nat}
    (hjj : jj < vocabPerEmbed vocab (embed.tshape t) a) {b : Buf ℝ} {y : Nat → ℝ}
    (hb : SumRep ((vocab.tshape [vocabStart vocab embed t a + jj, 0]).getD 0 0 * vocab.shape.getD 1 0) b y) :
    ∃ b', (bwdTask asIdx index embed vocab a redux t jj).fn ((bwdTask asIdx index embed vocab a redux t jj).reads.map s) b = .ok b' ∧
      SumRep ((vocab.tshape [vocabStart vocab embed t a + jj, 0]).getD 0 0 * vocab.shape.getD 1 0) b' (fun c => y c +
        embedInc (mOf (embed.tshape t) a) (nOf (embed.tshape t) a) (kOf (embed.tshape t) a) (jj * vocab.basetile.getD 0 0)
          ((vocab.tshape [vocabStart vocab embed t a + jj, 0]).getD 0 0)
          (fun i => (asIdx (w (globIdx index.basetile (t.eraseIdx a) (unlin (index.tshape (t.eraseIdx a)) i)))).toNat)
          (fun i => x (globIdx embed.basetile t (unlin (embed.tshape t) i))) c) := by
  have hsl := h.index
  have hsz := he.2.size ht
  have hax' : a < (embed.tshape t).length := by rw [he.1.tshape_length ht]; exact hsl.axis
  have hte := hsl.tile_inBox he.1 ht
  rw [size3 hax'] at hsz
  have hisz : (s (index.id, lin index.grid (t.eraseIdx a))).size = mOf (embed.tshape t) a * nOf (embed.tshape t) a := by
    rw [hi.2.size hte, hsl.tshape he.1 ht, prod_erase]; rfl
  obtain ⟨g1, g2, g3, g4⟩ := h.arith hv.1 he.1 ht hjj
  refine embeddingBackward_run (asIdx := asIdx) (w := fun i => w (globIdx index.basetile (t.eraseIdx a) (unlin (index.tshape (t.eraseIdx a)) i)))
    (by simp only [kOf]; omega) hb hisz ?_ hsz ?_ ?_
  · intro j hj
    have := Tensor.Holds.same rfl rfl hi.1 hw hte (unlin_inBox (hi.1.tshape_pos hte) j)
    rwa [lin_unlin (by rw [hsl.tshape he.1 ht, prod_erase]; exact hj)] at this
  · intro j hj
    have := Tensor.Holds.same rfl rfl he.1 hx ht (unlin_inBox (he.1.tshape_pos ht) j)
    rwa [lin_unlin (by rw [size3 hax']; exact hj)] at this
  · intro j hj
    exact hok _ (hi.1.glob hte (unlin_inBox (hi.1.tshape_pos hte) j)).1

/-- The tasks for the tile of `vocab` number `j`. -/
private theorem bwd_filter {index embed vocab : Tensor} {a : Nat} {asIdx : ℝ → Int} {redux : Bool} (t : List Nat) (j : Nat) :
    ((List.range (vocabPerEmbed vocab (embed.tshape t) a)).flatMap (fun jj => [bwdTask asIdx index embed vocab a redux t jj])).filter
        (fun u => u.out = (vocab.id, j)) =
      if vocabStart vocab embed t a ≤ j ∧ j - vocabStart vocab embed t a < vocabPerEmbed vocab (embed.tshape t) a then
        [bwdTask asIdx index embed vocab a redux t (j - vocabStart vocab embed t a)] else [] := by
  have hout : ∀ jj, (bwdTask asIdx index embed vocab a redux t jj).out = (vocab.id, vocabStart vocab embed t a + jj) := fun _ => rfl
  split
  · next hc =>
    rw [filter_flatMap_unique (j - vocabStart vocab embed t a) hc.2]
    · simp [hout, hc.1]
    · intro i _ hne u hu
      simp only [List.mem_singleton] at hu
      subst hu
      simp only [hout, Prod.mk.injEq, true_and, decide_eq_false_iff_not]
      omega
  · next hc =>
    rw [List.filter_eq_nil_iff]
    intro u hu
    simp only [List.mem_flatMap, List.mem_range, List.mem_singleton] at hu
    obtain ⟨jj, hjj, rfl⟩ := hu
    simp only [hout, Prod.mk.injEq, true_and, decide_eq_true_eq]
    omega

/-- `embedding_backward`: column `v` of `vocab` is increased by the sum of the vectors of `embed` at all places with token `v`. -/
theorem C22_embedding_backward {index embed vocab : Tensor} {a : Nat} {s : Store ℝ} (asIdx : ℝ → Int) (redux : Bool) (hi : index.Ready s) (hv : vocab.Ready s)
    (he : embed.Ready s) (hid : index.id ≠ vocab.id) (hid2 : embed.id ≠ vocab.id) (h : EmbedFit index vocab embed a) (w x y : List Nat → ℝ)
    (hw : index.Holds s w) (hx : embed.Holds s x) (hy : vocab.Holds s y) (hok : TokensOk index vocab asIdx w) :
    Computes (embeddingBackwardAsync asIdx index embed vocab a redux) s vocab (fun I => y I +
      ∑ J ∈ (box embed.shape).filter (fun J => J.getD a 0 = I.getD 0 0 ∧ (asIdx (w (J.eraseIdx a))).toNat = I.getD 1 0), x J) := by
  have hok' := bwd_ok asIdx redux hi hv he h
  obtain ⟨s', r1, r2, r3, r4⟩ := run_tensor hv.1 hv.2 (ts := (List.range embed.ntiles).flatMap (fun i =>
      (List.range (vocabPerEmbed vocab (embed.tshape (embed.tindex i)) a)).flatMap (fun jj => [bwdTask asIdx index embed vocab a redux (embed.tindex i) jj])))
    (fun I => some (y I + ∑ J ∈ (box embed.shape).filter (fun J => J.getD a 0 = I.getD 0 0 ∧ (asIdx (w (J.eraseIdx a))).toNat = I.getD 1 0), x J)) (by
      intro u hu
      simp only [List.mem_flatMap, List.mem_range, List.mem_singleton] at hu
      obtain ⟨i, hi, jj, hjj, rfl⟩ := hu
      exact ⟨_, (h.arith hv.1 he.1 (embed.tindex_inBox i) hjj).1, rfl⟩) (by
      intro u hu
      simp only [List.mem_flatMap, List.mem_range, List.mem_singleton] at hu
      obtain ⟨i, hi, jj, hjj, rfl⟩ := hu
      simp [bwdTask, submitEmbeddingBackward, task2, hid, hid2]) (by
      intro T hT
      have hjlt : lin vocab.grid T < vocab.ntiles := lin_lt hT
      obtain ⟨j, rfl⟩ : ∃ j, T = [j, 0] := ⟨_, by rw [← h.tindex hv.1 hjlt, Tensor.tindex_lin hT]⟩
      rw [h.lin_tile hv.1] at hjlt ⊢
      obtain ⟨v1, v2⟩ := vocab_tile hv h hy hjlt
      set ks := (vocab.tshape [j, 0]).getD 0 0 with hks
      set vb := vocab.basetile.getD 0 0 with hvb
      set V := vocab.shape.getD 1 0 with hV
      let D : Nat → Nat → ℝ := fun i c => ∑ l ∈ box (embed.tshape (embed.tindex i)),
        if (globIdx embed.basetile (embed.tindex i) l).getD a 0 = j * vb + c % ks ∧
          (asIdx (w ((globIdx embed.basetile (embed.tindex i) l).eraseIdx a))).toNat = c / ks then x (globIdx embed.basetile (embed.tindex i) l) else 0
      obtain ⟨b', e1, e2⟩ := foldBuf_flatMap_inv (s := s) (N := embed.ntiles) (gt := fun i =>
          (List.range (vocabPerEmbed vocab (embed.tshape (embed.tindex i)) a)).flatMap
            (fun jj => [bwdTask asIdx index embed vocab a redux (embed.tindex i) jj]))
        (q := fun u => u.out = (vocab.id, j)) (b := s (vocab.id, j))
        (fun N b => SumRep (ks * V) b (fun c => y [j * vb + c % ks, c / ks] + ∑ i ∈ range N, D i c))
        (by simp only [range_zero, sum_empty, add_zero]; exact ⟨v1, v2⟩) (by
          intro i hi' b hb
          have ht := embed.tindex_inBox i
          rw [bwd_filter]
          split
          · next hc =>
            rw [foldBuf_single]
            obtain ⟨q1, q2⟩ := hc
            have hjj : vocabStart vocab embed (embed.tindex i) a + (j - vocabStart vocab embed (embed.tindex i) a) = j := by omega
            obtain ⟨b', f1, f2⟩ := bwd_task (asIdx := asIdx) (redux := redux) hi hv he h hw hx hok ht q2 (b := b) (by rw [hjj]; exact hb)
            refine ⟨b', ?_, ?_⟩
            · rw [← f1]
              congr 1
              unfold Task1.inp
              rw [if_neg]
              simp only [bwdTask, submitEmbeddingBackward, task2]
              cases redux <;> simp
            · rw [hjj] at f2
              refine ⟨f2.1, fun c hc => ?_⟩
              obtain ⟨s1, s2, s3⟩ := cell2_split hc
              have := embedInc_tile h hv.1 he.1 hi.1 ht q2 (fun I => (asIdx (w I)).toNat) x (c := c % ks) (v := c / ks) (by rw [hjj]; exact s1)
              rw [hjj, ← hks, ← hvb, s3] at this
              rw [f2.2 c hc]
              simp only [← hks, ← hvb]
              rw [this]
              simp only [sum_range_succ, add_assoc]
              rfl
          · next hc =>
            refine ⟨b, rfl, hb.1, fun c hc' => ?_⟩
            obtain ⟨s1, s2, s3⟩ := cell2_split hc'
            have : D i c = 0 := by
              refine sum_eq_zero (fun l hl => ?_)
              rw [if_neg]
              rintro ⟨q1, -⟩
              exact hc (h.cover hv.1 he.1 ht (mem_box.1 hl) s1 hjlt q1)
            rw [hb.2 c hc']
            simp only [sum_range_succ, this, add_zero])
      refine ⟨b', e1, by rw [e2.1, v1], ?_⟩
      intro l hl
      have hts := h.tshape hv.1 hjlt
      rw [show min (vocab.basetile.getD 0 0) (vocab.shape.getD 0 0 - j * vocab.basetile.getD 0 0) = ks by rw [hks, hts]; rfl] at hts
      rw [hts] at hl ⊢
      obtain ⟨c, v, rfl⟩ : ∃ c v, l = [c, v] := List.length_eq_two.1 hl.length
      obtain ⟨hc, hv', -⟩ := hl
      have hcell := cell2_lt hc hv'
      have := e2.2 _ hcell
      simp only [cell2_mod hc, cell2_div hc] at this
      simp only [lin, Nat.mul_zero, Nat.add_zero]
      rw [this, h.glob hv.1]
      congr 2
      rw [sum_filter, sum_box_tiles he.1.1 he.1.2.1 he.1.2.2, ← Tensor.grid, sum_box embed.grid_pos]
      refine sum_congr rfl (fun i _ => ?_)
      simp only [D, cell2_mod hc, cell2_div hc]
      rfl)
  exact ⟨_, s', hok', r1, r2, r3, hv.1, r4⟩

/-- The same in the reduction mode of the runtime (property C27). -/
theorem C27_embedding_backward {index embed vocab : Tensor} {a : Nat} {s : Store ℝ} (asIdx : ℝ → Int) (redux : Bool) (hi : index.Ready s) (hv : vocab.Ready s)
    (he : embed.Ready s) (hid : index.id ≠ vocab.id) (hid2 : embed.id ≠ vocab.id) (h : EmbedFit index vocab embed a) (w x y : List Nat → ℝ)
    (hw : index.Holds s w) (hx : embed.Holds s x) (hy : vocab.Holds s y) (hok : TokensOk index vocab asIdx w) :
    ComputesRedux reduxAdd (embeddingBackwardAsync asIdx index embed vocab a redux) s vocab (fun I => y I +
      ∑ J ∈ (box embed.shape).filter (fun J => J.getD a 0 = I.getD 0 0 ∧ (asIdx (w (J.eraseIdx a))).toNat = I.getD 1 0), x J) := by
  have hC := C22_embedding_backward asIdx redux hi hv he hid hid2 h w x y hw hx hy hok
  refine computesRedux_of_computes hv hC (bwd_ok asIdx redux hi hv he h) ?_ ?_ ?_
  · intro u hu
    simp only [List.mem_flatMap, List.mem_range, List.mem_singleton] at hu
    obtain ⟨i, hi, jj, hjj, rfl⟩ := hu
    exact ⟨_, (h.arith hv.1 he.1 (embed.tindex_inBox i) hjj).1, rfl⟩
  · intro u hu
    simp only [List.mem_flatMap, List.mem_range, List.mem_singleton] at hu
    obtain ⟨i, hi, jj, hjj, rfl⟩ := hu
    simp [bwdTask, submitEmbeddingBackward, task2, hid, hid2]
  · intro T hT
    have hjlt : lin vocab.grid T < vocab.ntiles := lin_lt hT
    obtain ⟨j, rfl⟩ : ∃ j, T = [j, 0] := ⟨_, by rw [← h.tindex hv.1 hjlt, Tensor.tindex_lin hT]⟩
    rw [h.lin_tile hv.1] at hjlt ⊢
    obtain ⟨v1, v2⟩ := vocab_tile hv h hy hjlt
    have hsz := hv.2.size hT
    rw [h.lin_tile hv.1, v1] at hsz
    rw [← hsz]
    rw [List.filter_flatMap]
    simp only [bwd_filter]
    have hfl : ∀ (p : Nat → Prop) [DecidablePred p] (f : Nat → Task1 ℝ) (L : List Nat),
        L.flatMap (fun i => if p i then [f i] else []) = (L.filter (fun i => decide (p i))).map f := by
      intro p _ f L
      induction L with
      | nil => rfl
      | cons i L ih =>
        rw [List.flatMap_cons, ih]
        by_cases hp : p i <;> simp [hp]
    rw [hfl]
    obtain ⟨i0, rest, e, ⟨g1, g2, -⟩, g4⟩ := range_filter_cons (n := embed.ntiles)
      (p := fun i => decide (vocabStart vocab embed (embed.tindex i) a ≤ j ∧
        j - vocabStart vocab embed (embed.tindex i) a < vocabPerEmbed vocab (embed.tshape (embed.tindex i)) a)) (by
        obtain ⟨t, ht, h1⟩ := h.some_tile hv.1 he.1 hjlt
        exact ⟨lin embed.grid t, lin_lt ht, by simpa [Tensor.tindex_lin ht] using h1⟩)
    rw [e, List.map_cons]
    have haff : ∀ i, i < embed.ntiles → decide (vocabStart vocab embed (embed.tindex i) a ≤ j ∧
        j - vocabStart vocab embed (embed.tindex i) a < vocabPerEmbed vocab (embed.tshape (embed.tindex i)) a) = true →
        ∃ W, Affine ((vocab.tshape [j, 0]).getD 0 0 * vocab.shape.getD 1 0) s
          (bwdTask asIdx index embed vocab a redux (embed.tindex i) (j - vocabStart vocab embed (embed.tindex i) a)) 1 W := by
      intro i hi' hc
      simp only [decide_eq_true_eq] at hc
      have hjj : vocabStart vocab embed (embed.tindex i) a + (j - vocabStart vocab embed (embed.tindex i) a) = j := by omega
      refine ⟨fun c => embedInc (mOf (embed.tshape (embed.tindex i)) a) (nOf (embed.tshape (embed.tindex i)) a) (kOf (embed.tshape (embed.tindex i)) a)
        ((j - vocabStart vocab embed (embed.tindex i) a) * vocab.basetile.getD 0 0) ((vocab.tshape [j, 0]).getD 0 0)
        (fun i' => (asIdx (w (globIdx index.basetile ((embed.tindex i).eraseIdx a) (unlin (index.tshape ((embed.tindex i).eraseIdx a)) i')))).toNat)
        (fun i' => x (globIdx embed.basetile (embed.tindex i) (unlin (embed.tshape (embed.tindex i)) i'))) c, fun c Y hc1 hc2 => ?_⟩
      obtain ⟨b', f1, f2⟩ := bwd_task (asIdx := asIdx) (redux := redux) hi hv he h hw hx hok (embed.tindex_inBox i) hc.2 (b := c) (y := Y)
        (by rw [hjj]; exact ⟨hc1, hc2 one_ne_zero⟩)
      rw [hjj] at f2
      refine ⟨b', f1, f2.1, fun k hk => ?_⟩
      rw [f2.2 k hk]
      simp only [one_mul]
    have hmode : ∀ t jj, (bwdTask asIdx index embed vocab a redux t jj).mode = reduceMode (1 : ℝ) redux := by
      intro t jj
      cases redux <;> simp [bwdTask, submitEmbeddingBackward, task2, reduceMode]
    refine reduces_sums (beta := 1) (r := redux) (r' := redux) (hmode _ _) (haff i0 g1 g2) ?_ ?_ v1 ?_
    · intro u hu
      simp only [List.mem_map] at hu
      obtain ⟨i, -, rfl⟩ := hu
      exact hmode _ _
    · intro u hu
      simp only [List.mem_map] at hu
      obtain ⟨i, hi', rfl⟩ := hu
      exact haff i (g4 i hi').1 (g4 i hi').2.1
    · intro _ k hk
      exact ⟨_, v2 k hk⟩

/-- `embedding_backward` is the adjoint of `embedding`: for a gradient `g` of the result, the inner product of `g` with the result equals the inner product
of the vocabulary with what `embedding_backward` adds to `dvocab`. -/
theorem C22_adjoint {index vocab embed dembed dvocab : Tensor} {a : Nat} {s : Store ℝ} (asIdx : ℝ → Int) (redux : Bool) (hi : index.Ready s)
    (hv : vocab.Ready s) (he : embed.Ready s) (hde : dembed.Ready s) (hdv : dvocab.Ready s) (hid : index.id ≠ embed.id) (hid2 : vocab.id ≠ embed.id)
    (hid3 : index.id ≠ dvocab.id) (hid4 : dembed.id ≠ dvocab.id) (h : EmbedFit index vocab embed a) (hd : EmbedFit index dvocab dembed a)
    (hse : dembed.shape = embed.shape) (hsv : dvocab.shape = vocab.shape) (w y g y0 : List Nat → ℝ)
    (hw : index.Holds s w) (hy : vocab.Holds s y) (hg : dembed.Holds s g) (hy0 : dvocab.Holds s y0) (hok : TokensOk index vocab asIdx w) :
    ∃ e v, Computes (embeddingAsync asIdx index vocab embed a) s embed e ∧ Computes (embeddingBackwardAsync asIdx index dembed dvocab a redux) s dvocab v ∧
      ∑ I ∈ box embed.shape, e I * g I = ∑ I ∈ box vocab.shape, y I * (v I - y0 I) := by
  refine ⟨_, _, C22_embedding asIdx hi hv he hid hid2 h w y hw hy hok, C22_embedding_backward asIdx redux hi hdv hde hid3 hid4 hd w g y0 hw hg hy0
    (by intro J hJ; rw [hsv]; exact hok J hJ), ?_⟩
  rw [hse]
  simp only [add_sub_cancel_left]
  have hin : ∀ I, InBox embed.shape I → InBox vocab.shape [I.getD a 0, (asIdx (w (I.eraseIdx a))).toNat] := by
    intro I hI
    obtain ⟨K, V, b, B, hs, hb, hK, -⟩ := h.vocab_eq hv.1
    have h1 := hI.getD h.index.axis
    have h2 := hok (I.eraseIdx a) (by rw [h.index.shape]; exact hI.erase a)
    rw [hs] at h2 ⊢
    simp only [List.getD_cons_succ, List.getD_cons_zero] at h2
    exact ⟨by omega, by omega, trivial⟩
  have : ∀ I ∈ box vocab.shape, y I * ∑ J ∈ (box embed.shape).filter (fun J => J.getD a 0 = I.getD 0 0 ∧ (asIdx (w (J.eraseIdx a))).toNat = I.getD 1 0), g J =
      ∑ J ∈ (box embed.shape).filter (fun J => [J.getD a 0, (asIdx (w (J.eraseIdx a))).toNat] = I),
        y [J.getD a 0, (asIdx (w (J.eraseIdx a))).toNat] * g J := by
    intro I hI
    obtain ⟨c, v, rfl⟩ : ∃ c v, I = [c, v] := List.length_eq_two.1 ((mem_box.1 hI).length.trans h.ndim)
    rw [mul_sum]
    simp only [List.getD_cons_succ, List.getD_cons_zero, List.cons.injEq, and_true]
    refine sum_congr rfl (fun J hJ => ?_)
    obtain ⟨-, h1, h2⟩ := mem_filter.1 hJ
    rw [h1, h2]
  rw [sum_congr rfl this, sum_fiberwise_of_maps_to]
  intro J hJ
  rw [mem_box] at hJ ⊢
  exact hin J hJ

/-! ### Argument checks -/

/-- What is checked for `0 <= axis <= index.ndim`: everything but the size and tiling of dimension `axis-1` of `index`, and but the tiling of the second
dimension of `vocab`. -/
def EmbedChecked (index vocab embed : Tensor) (a : Nat) : Prop :=
  index.ndim + 1 = embed.ndim ∧ vocab.ndim = 2 ∧
    (∀ i, i < index.ndim → i + 1 ≠ a →
      index.shape.getD i 0 = (embed.shape.eraseIdx a).getD i 0 ∧ index.basetile.getD i 0 = (embed.basetile.eraseIdx a).getD i 0) ∧
    embed.shape.getD a 0 = vocab.shape.getD 0 0 ∧ vocab.basetile.getD 0 0 ∣ embed.basetile.getD a 0

private theorem embed_throws {β : Type} {index vocab embed : Tensor} {a : Nat} (hi : index.WF) (hv : vocab.WF) (he : embed.WF) (ha : a ≤ index.ndim)
    (h : ¬ EmbedChecked index vocab embed a) (f : Unit → M β) : Throws (embeddingCheck index vocab embed a >>= f) := by
  have key : Throws (embeddingCheck index vocab embed a) := by
    have gD : ∀ (L : List Nat) (i : Nat), i < a → (L.eraseIdx a).getD i 0 = L.getD i 0 := by
      intro L i hia
      simp [List.getD_eq_getElem?_getD, List.getElem?_eraseIdx, hia]
    have gD' : ∀ (L : List Nat) (i : Nat), (L.eraseIdx a).getD (a + i) 0 = L.getD (a + i + 1) 0 := by
      intro L i
      simp [List.getD_eq_getElem?_getD, List.getElem?_eraseIdx]
    simp only [embeddingCheck]
    refine throws_step fun h1 => ?_
    refine throws_step fun h2 => ?_
    simp only [ne_eq, not_not] at h1 h2
    have hdn := h1
    have hvl := hv.2.2
    simp only [Tensor.ndim] at h1 h2 ha
    refine (Check.forCheck (fun i hi' => checkPair_check hi he (i := i) (j := i) (by simp only [Tensor.ndim]; omega)
      (by simp only [Tensor.ndim]; omega))).throws_step fun h3 => ?_
    rw [if_neg (by omega)]
    simp only [Int.toNat_natCast]
    refine (Check.forCheck (fun i hi' => checkPair_check hi he (i := a + i) (j := a + i + 1) (by omega)
      (by simp only [Tensor.ndim] at *; omega))).throws_step fun h4 => ?_
    rw [vget_ok (by omega), M.bind_ok, vget_ok (by omega), M.bind_ok]
    refine throws_step fun h5 => ?_
    rw [vget_ok (by rw [he.2.2]; omega), M.bind_ok, vget_ok (by omega), M.bind_ok]
    refine Check.throwIf.bad (fun h6 => ?_)
    simp only [ne_eq, not_not] at h5 h6
    refine h ⟨hdn, h2, ?_, h5, Nat.dvd_of_mod_eq_zero h6⟩
    intro i hil hne
    simp only [Tensor.ndim] at hil
    by_cases hia : i < a
    · rw [gD _ _ hia, gD _ _ hia]
      exact h3 i (by omega)
    · obtain ⟨q, rfl⟩ : ∃ q, i = a + q := ⟨i - a, by omega⟩
      rw [gD', gD']
      exact h4 q (by simp only [Tensor.ndim]; omega)
  exact key.bind

/-- Arguments for which the checked conditions do not hold are rejected, provided that `0 <= axis <= index.ndim`. -/
theorem C22_rejects_partial {α : Type} [FP α] {index vocab embed : Tensor} {a : Nat} (asIdx : α → Int) (redux : Bool) (hi : index.WF) (hv : vocab.WF)
    (he : embed.WF) (ha : a ≤ index.ndim) (h : ¬ EmbedChecked index vocab embed a) :
    Throws (embeddingAsync asIdx index vocab embed a) ∧ Throws (embeddingBackwardAsync asIdx index embed vocab a redux) :=
  ⟨embed_throws hi hv he ha h _, embed_throws hi hv he ha h _⟩

/-- With `axis > 0`, dimension `axis-1` of `index` is not checked: an index of one token with an embedding of two is accepted, and the kernel reads the
second token out of the bounds of `index`. -/
theorem C22_dim_refuted {α : Type} [FP α] (asIdx : α → Int) (x : α) (h0 : asIdx x = 0) : ∃ (index vocab embed : Tensor) (s : Store α),
    index.Ready s ∧ vocab.Ready s ∧ embed.Ready s ∧ index.Holds s (fun _ => x) ∧ vocab.Holds s (fun _ => x) ∧ embed.Holds s (fun _ => x) ∧
    TokensOk index vocab asIdx (fun _ => x) ∧ index.shape ≠ embed.shape.eraseIdx 1 ∧
    (∃ ts, embeddingAsync asIdx index vocab embed 1 = .ok ts ∧ IsUB (runAll1 ts s)) ∧
    (∃ ts, embeddingBackwardAsync asIdx index embed vocab 1 false = .ok ts ∧ IsUB (runAll1 ts s)) := by
  let s : Store α := fun h => ⟨if h.1 = 2 then 2 else 1, fun _ => some x⟩
  refine ⟨⟨0, [1], [1]⟩, ⟨1, [1, 1], [1, 1]⟩, ⟨2, [2, 1], [2, 1]⟩, s, ⟨by decide, ?_⟩, ⟨by decide, ?_⟩, ⟨by decide, ?_⟩, fun _ _ => rfl, fun _ _ => rfl,
    fun _ _ => rfl, fun J _ => ⟨h0.symm ▸ le_refl _, by rw [h0]; decide⟩, by decide,
    ⟨[submitClear (2, 0), submitEmbedding asIdx 2 1 1 0 1 (0, 0) (1, 0) (2, 0)], ?_, "read out of bounds", ?_⟩,
    ⟨[submitEmbeddingBackward asIdx 2 1 1 0 1 (0, 0) (2, 0) (1, 0) false], ?_, "read out of bounds", ?_⟩⟩
  · intro i hi
    have : i = 0 := by have : i < 1 := hi; omega
    subst this; rfl
  · intro i hi
    have : i = 0 := by have : i < 1 := hi; omega
    subst this; rfl
  · intro i hi
    have : i = 0 := by have : i < 1 := hi; omega
    subst this; rfl
  · rfl
  · simp [runAll1, runAll, Task1.toTask, Task.exec, Task.outs, submitEmbedding, submitClear, task0, task2, embeddingKernel, clearKernel, forN, Store.view,
      Buf.rd, Buf.wr, s, Store.setAll, tokenOff, h0]
  · rfl
  · simp [runAll1, runAll, Task1.toTask, Task.exec, Task.outs, submitEmbeddingBackward, task2, embeddingBackwardKernel, forN, Store.view,
      Buf.rd, Buf.wr, s, tokenOff, h0]

/-- The tiling of the second dimension of `vocab` is not checked: here `vocab` has two columns, each in its own tile, and for the token 1 the kernel reads
out of the bounds of the first tile. -/
theorem C22_vocab_refuted {α : Type} [FP α] (asIdx : α → Int) (x : α) (h1 : asIdx x = 1) : ∃ (index vocab embed : Tensor) (s : Store α),
    index.Ready s ∧ vocab.Ready s ∧ embed.Ready s ∧ index.Holds s (fun _ => x) ∧ vocab.Holds s (fun _ => x) ∧ embed.Holds s (fun _ => x) ∧
    TokensOk index vocab asIdx (fun _ => x) ∧ index.SliceOf embed 0 ∧ vocab.shape.getD 1 0 > vocab.basetile.getD 1 0 ∧
    (∃ ts, embeddingAsync asIdx index vocab embed 0 = .ok ts ∧ IsUB (runAll1 ts s)) ∧
    (∃ ts, embeddingBackwardAsync asIdx index embed vocab 0 false = .ok ts ∧ IsUB (runAll1 ts s)) := by
  let s : Store α := fun h => ⟨1, fun _ => some x⟩
  refine ⟨⟨0, [1], [1]⟩, ⟨1, [1, 2], [1, 1]⟩, ⟨2, [1, 1], [1, 1]⟩, s, ⟨by decide, ?_⟩, ⟨by decide, ?_⟩, ⟨by decide, ?_⟩, fun _ _ => rfl, fun _ _ => rfl,
    fun _ _ => rfl, fun J _ => ⟨by rw [h1]; decide, by rw [h1]; decide⟩, ⟨by decide, by decide, by decide⟩, by decide,
    ⟨[submitClear (2, 0), submitEmbedding asIdx 1 1 1 0 1 (0, 0) (1, 0) (2, 0)], ?_, "read out of bounds", ?_⟩,
    ⟨[submitEmbeddingBackward asIdx 1 1 1 0 1 (0, 0) (2, 0) (1, 0) false], ?_, "read out of bounds", ?_⟩⟩
  · intro i hi
    have : i = 0 := by have : i < 1 := hi; omega
    subst this; rfl
  · intro i hi
    have : i = 0 ∨ i = 1 := by have : i < 2 := hi; omega
    rcases this with rfl | rfl <;> rfl
  · intro i hi
    have : i = 0 := by have : i < 1 := hi; omega
    subst this; rfl
  · rfl
  · simp [runAll1, runAll, Task1.toTask, Task.exec, Task.outs, submitEmbedding, submitClear, task0, task2, embeddingKernel, clearKernel, forN, Store.view,
      Buf.rd, Buf.wr, s, Store.setAll, tokenOff, h1]
  · rfl
  · simp [runAll1, runAll, Task1.toTask, Task.exec, Task.outs, submitEmbeddingBackward, task2, embeddingBackwardKernel, forN, Store.view,
      Buf.rd, Buf.wr, s, tokenOff, h1]

/-- The range of `axis` is not checked: a negative or too large `axis` leads to reads out of bounds. -/
theorem C22_axis_refuted {α : Type} [FP α] (asIdx : α → Int) : ∃ (index vocab embed : Tensor), index.WF ∧ vocab.WF ∧ embed.WF ∧ index.SliceOf embed 0 ∧
    ∀ redux, IsUB (embeddingAsync asIdx index vocab embed (-1)) ∧ IsUB (embeddingAsync asIdx index vocab embed 2) ∧
      IsUB (embeddingBackwardAsync asIdx index embed vocab (-1) redux) ∧ IsUB (embeddingBackwardAsync asIdx index embed vocab 2 redux) := by
  refine ⟨⟨0, [1], [1]⟩, ⟨1, [1, 1], [1, 1]⟩, ⟨2, [1, 1], [1, 1]⟩, by decide, by decide, by decide, ⟨by decide, by decide, by decide⟩, fun redux => ?_⟩
  refine ⟨⟨"vector access out of bounds", ?_⟩, ⟨"vector access out of bounds", ?_⟩, ⟨"vector access out of bounds", ?_⟩, ⟨"vector access out of bounds", ?_⟩⟩ <;>
  simp [embeddingAsync, embeddingBackwardAsync, embeddingCheck, throwIf, Tensor.ndim, forCheck, forN, checkPair, vget]

/-- The hypotheses are met by a `5×7×4` embedding in `2×6×4` tiles with a vocabulary of nine vectors of size seven in tiles of three. -/
example : ∃ (index vocab embed : Tensor) (s : Store ℝ) (w y x : List Nat → ℝ), embed.ntiles = 6 ∧ vocab.ntiles = 3 ∧ index.Ready s ∧ vocab.Ready s ∧
    embed.Ready s ∧ index.id ≠ embed.id ∧ vocab.id ≠ embed.id ∧ index.id ≠ vocab.id ∧ EmbedFit index vocab embed 1 ∧ index.Holds s w ∧ vocab.Holds s y ∧
    embed.Holds s x ∧ TokensOk index vocab (fun r : ℝ => ⌊r⌋) w ∧ w [0, 0] ≠ w [1, 0] := by
  obtain ⟨s, h1, h2, h3⟩ := exists_store3 (A := ⟨0, [5,4], [2,4]⟩) (B := ⟨1, [7,9], [3,10]⟩) (C := ⟨2, [5,7,4], [2,6,4]⟩)
    (fun I => (I.headD 0 : ℝ)) (fun I => (lin [7,9] I : ℝ)) (fun _ => (1 : ℝ)) (by decide) (by decide) (by decide) (by decide) (by decide) (by decide)
  refine ⟨_, _, _, s, _, _, _, by decide, by decide, h1.1, h2.1, h3.1, by decide, by decide, by decide,
    ⟨⟨by decide, by decide, by decide⟩, by decide, by decide, by decide, by decide⟩, h1.2, h2.2, h3.2, ?_, by simp⟩
  intro J hJ
  obtain ⟨i, j, rfl⟩ := List.length_eq_two.1 hJ.length
  have : i < 5 := hJ.1
  simp
  omega

end NNTile
