import Verif.Model.Randn
import Verif.Lib.TileLoop
import Verif.Lib.Randn
import Verif.Lib.Traits
/-! `randn_async` -/
namespace NNTile

theorem randnCheck_ok_iff {st us : List Int} {sh : List Nat} (h1 : st.length = sh.length) (h2 : us.length = sh.length) :
    randnCheck st sh us = .ok () ↔ ∃ st' us' : List Nat, st = toInts st' ∧ us = toInts us' ∧ List.Forall₂ (· ≤ ·) (addIdx st' sh) us' := by
  induction sh generalizing st us with
  | nil =>
    have e1 : st = [] := by simpa using h1
    have e2 : us = [] := by simpa using h2
    subst e1 e2
    simp only [randnCheck, true_iff]
    exact ⟨[], [], rfl, rfl, by simp⟩
  | cons s sh ih => cases st with
    | nil => simp at h1
    | cons a st => cases us with
      | nil => simp at h2
      | cons u us =>
        simp only [List.length_cons, Nat.add_right_cancel_iff] at h1 h2
        simp only [randnCheck]
        constructor
        · intro h
          split at h
          · cases h
          · split at h
            · cases h
            · obtain ⟨st', us', rfl, rfl, hle⟩ := (ih h1 h2).1 h
              refine ⟨a.toNat :: st', u.toNat :: us', ?_, ?_, ?_⟩
              · simp; omega
              · simp; omega
              · simp only [addIdx_cons, List.forall₂_cons]
                exact ⟨by omega, hle⟩
        · rintro ⟨st', us', e1, e2, hle⟩
          cases st' with
          | nil => simp at e1
          | cons a' st' => cases us' with
            | nil => simp at e2
            | cons u' us' =>
              simp only [toInts_cons, List.cons.injEq] at e1 e2
              simp only [addIdx_cons, List.forall₂_cons] at hle
              rw [if_neg (by omega), if_neg (by omega)]
              exact (ih h1 h2).2 ⟨st', us', e1.2, e2.2, hle.2⟩

theorem randnTileCarry_spec {g st B j : List Nat} (hst : st.length = g.length) (hB : B.length = g.length)
    (h : InBox g j) (hlt : lin g j + 1 < g.prod) :
    ∀ b B', B = b :: B' → randnTileCarry (incHead j) (addIdx st (mulIdx (incHead j) B)) st B g
      = .ok (nxt g j, addIdx st (mulIdx (nxt g j) B)) := by
  induction g generalizing st B j with
  | nil => simp at hlt
  | cons c g ih =>
    rintro b B' rfl
    cases st with
    | nil => simp at hst
    | cons s st => cases j with
      | nil => simp at h
      | cons x j =>
        simp only [List.length_cons, Nat.add_right_cancel_iff] at hst hB
        simp only [InBox_cons] at h
        simp only [lin_cons, List.prod_cons] at hlt
        have hl := h.2.length
        simp only [incHead_cons, nxt, mulIdx, addIdx_cons]
        by_cases hb : x + 1 = c
        · have h1 : lin g j + 1 < g.prod := by
            have : c * (lin g j + 1) < c * g.prod := by rw [Nat.mul_add]; omega
            exact Nat.lt_of_mul_lt_mul_left this
          cases g with
          | nil => simp at h1
          | cons c1 g => cases st with
            | nil => simp at hst
            | cons s1 st => cases B' with
              | nil => simp at hB
              | cons b1 B' => cases j with
                | nil => simp at hl
                | cons x1 j =>
                  have := ih (st := s1 :: st) (by simpa using hst) (by simpa using hB) h.2 h1 b1 B' rfl
                  simp only [incHead_cons, mulIdx, addIdx_cons] at this
                  simp only [mulIdx, addIdx_cons, randnTileCarry]
                  rw [if_pos hb, if_pos hb, show s1 + x1 * b1 + b1 = s1 + (x1 + 1) * b1 by ring, this]
                  simp [mulIdx]
        · rw [if_neg hb]
          cases j with
          | nil =>
            simp at hl
            have := List.eq_nil_of_length_eq_zero hl.symm
            subst this
            have : st = [] := List.eq_nil_of_length_eq_zero (by simpa using hst)
            subst this
            have : B' = [] := List.eq_nil_of_length_eq_zero (by simpa using hB)
            subst this
            simp only [mulIdx, addIdx_nil, randnTileCarry]
            rw [if_neg hb]
            simp [mulIdx]
          | cons x1 j =>
            cases g with
            | nil => simp at hl
            | cons c1 g => cases st with
              | nil => simp at hst
              | cons s1 st => cases B' with
                | nil => simp at hB
                | cons b1 B' =>
                  simp only [mulIdx, addIdx_cons, randnTileCarry]
                  rw [if_neg hb]

theorem randnTileNext_spec {g st B : List Nat} (hg : Pos g) (hst : st.length = g.length) (hB : B.length = g.length) {i : Nat}
    (hi : i + 1 < g.prod) :
    randnTileNext st B g (unlin g i, addIdx st (mulIdx (unlin g i) B))
      = .ok (unlin g (i+1), addIdx st (mulIdx (unlin g (i+1)) B)) := by
  have hbox := unlin_inBox hg i
  have hlin : lin g (unlin g i) = i := lin_unlin (by omega)
  cases B with
  | nil => simp at hB; have := List.eq_nil_of_length_eq_zero hB.symm; subst this; simp at hi
  | cons b B =>
    have h := randnTileCarry_spec hst hB hbox (by rw [hlin]; omega) b B rfl
    rw [nxt_eq_unlin hbox (by rw [hlin]; omega), hlin] at h
    cases g with
    | nil => simp at hi
    | cons a g => cases st with
      | nil => simp at hst
      | cons s st =>
        rw [← h]
        simp only [randnTileNext, unlin_cons, incHead_cons, mulIdx, addIdx_cons]
        rw [show s + i % a * b + b = s + (i % a + 1) * b by ring]

theorem tileShape_le_shape {S B T : List Nat} (hl : B.length = S.length) (hT : T.length = S.length) :
    List.Forall₂ (· ≤ ·) (tileShape S B T) S := by
  induction S generalizing B T with
  | nil => simp
  | cons s S ih => cases B with
    | nil => simp at hl
    | cons b B => cases T with
      | nil => simp at hT
      | cons t T => simp at hl hT; simp only [tileShape_cons, List.forall₂_cons]; exact ⟨by omega, ih hl hT⟩

theorem forall₂_addIdx_le {a b u : List Nat} (hab : a.length = b.length) (h : List.Forall₂ (· ≤ ·) (addIdx a b) u) : List.Forall₂ (· ≤ ·) b u := by
  induction a generalizing b u with
  | nil => cases b <;> simp_all
  | cons x a ih => cases b with
    | nil => simp at hab
    | cons y b => cases u with
      | nil => simp at h
      | cons z u =>
        simp at hab
        simp only [addIdx_cons, List.forall₂_cons] at h ⊢
        exact ⟨by omega, ih hab h.2⟩

theorem forall₂_le_trans {a b c : List Nat} (h1 : List.Forall₂ (· ≤ ·) a b) (h2 : List.Forall₂ (· ≤ ·) b c) : List.Forall₂ (· ≤ ·) a c := by
  induction h1 generalizing c with
  | nil => cases h2; simp
  | cons h _ ih => cases h2 with
    | cons h' t => simp only [List.forall₂_cons]; exact ⟨Nat.le_trans h h', ih t⟩

theorem addIdx_assoc (a b c : List Nat) : addIdx (addIdx a b) c = addIdx a (addIdx b c) := by
  induction a generalizing b c with
  | nil => simp
  | cons x a ih => cases b with
    | nil => simp
    | cons y b => cases c with
      | nil => simp
      | cons z c => simp [ih, Nat.add_assoc]

theorem randnAsync_spec {α υ : Type _} (uniform : Seed → υ) (normal : υ → υ → α) {dst : Tensor} (hd : dst.WF)
    {st us : List Nat} (hst : st.length = dst.shape.length)
    (hle : List.Forall₂ (· ≤ ·) (addIdx st dst.shape) us) (seed : Seed) (s : Store α) (ha : dst.Alloc s) :
    ∃ tasks s', randnAsync uniform normal dst (toInts st) (toInts us) seed = .ok tasks ∧ runAll1 tasks s = .ok s' ∧
      (∀ I, InBox dst.shape I → dst.get s' I = some (nthNormal uniform normal seed (lin us (addIdx st I)))) ∧
      OnlyChanged [dst.id] s s' ∧ dst.Alloc s' := by
  have hus : us.length = dst.shape.length := by rw [← hle.length_eq, addIdx_length hst.symm, hst]
  have hchk : randnCheck (toInts st) dst.shape (toInts us) = .ok () :=
    (randnCheck_ok_iff (by simp [hst]) (by simp [hus])).2 ⟨st, us, rfl, rfl, hle⟩
  simp only [randnAsync]
  rw [if_neg (by simp [Tensor.ndim, hst]), if_neg (by simp [Tensor.ndim, hus])]
  simp only [hchk, pure_bind, M.bind_ok]
  by_cases h0 : dst.ndim = 0
  · have hS : dst.shape = [] := List.eq_nil_of_length_eq_zero h0
    have hst0 : st = [] := List.eq_nil_of_length_eq_zero (by rw [hst, hS]; rfl)
    rw [if_pos h0]
    have hn : dst.ntiles = 1 := by simp [Tensor.ntiles, Tensor.grid, hS]
    rw [Tensor.handleL_ok (by omega), M.bind_ok]
    obtain ⟨s', h1, h2, h3⟩ := runAll1_tensor (ts := [submitRandn0 uniform normal seed (dst.id, 0)]) (s := s) dst.id 1
      (fun _ => ⟨(s (dst.id, 0)).size, fun j => if j = 0 then some (chameleonRandn uniform normal seed).1 else none⟩)
      (by simp [submitRandn0]) (by simp [submitRandn0])
      (by
        intro i hi
        have : i = 0 := by omega
        subst this
        have hsz : (s (dst.id, 0)).size = 1 := by
          rw [ha 0 (by omega)]; simp [Tensor.tshapeL, Tensor.tshape, hS]
        simp [submitRandn0, foldBuf, Task1.inp, randnKernel0, Buf.wr, hsz])
    refine ⟨_, s', rfl, h1, ?_, OnlyChanged.of_tensor h3, ?_⟩
    · intro I hI
      rw [hS] at hI
      have : I = [] := List.eq_nil_of_length_eq_zero (by rw [hI.length]; rfl)
      subst this
      have e : dst.hOf [] = (dst.id, 0) := by simp [Tensor.hOf]
      have e' : dst.oOf [] = 0 := by simp [Tensor.oOf]
      simp only [Tensor.get, e, e', h2 0 (by omega)]
      simp [nthNormal, chameleonRandn, hst0]
    · intro i hi
      have : i = 0 := by omega
      subst this
      rw [h2 0 (by omega)]; exact ha 0 hi
  · rw [if_neg h0]
    have hmap : ∀ l : List Nat, (toInts l).map Int.toNat = l := by
      intro l; induction l with
      | nil => rfl
      | cons a l ih => simp [ih]
    rw [hmap, hmap]
    have hgl : dst.grid.length = dst.shape.length := hd.grid_length
    have hinit : (List.replicate dst.ndim 0, st) = (unlin dst.grid 0, addIdx st (mulIdx (unlin dst.grid 0) dst.basetile)) := by
      have e1 : unlin dst.grid 0 = List.replicate dst.ndim 0 := by rw [unlin_zero, hgl]; rfl
      have e2 : ∀ (B : List Nat) n, n = B.length → mulIdx (List.replicate n 0) B = List.replicate n 0 := by
        intro B
        induction B with
        | nil => rintro n rfl; rfl
        | cons b B ih => rintro n rfl; simp [List.replicate_succ, mulIdx, ih]
      rw [e1, e2 _ _ (by rw [hd.2.2]; rfl), addIdx_zero (by rw [hst]; rfl)]
    rw [hinit]
    let gt : Nat → List (Task1 α) := fun i =>
      [submitRandn uniform normal (dst.tshapeL i).prod seed (addIdx st (mulIdx (dst.tindex i) dst.basetile)) (dst.tshapeL i)
        (strideFrom 1 (dst.tshapeL i)) us (dst.id, i)]
    have hloop := odoLoop_ok (next := randnTileNext st dst.basetile dst.grid)
      (body := fun i p => do
        let h ← dst.handleL i
        let ts := dst.tshapeL i
        .ok [submitRandn uniform normal ts.prod seed p.2 ts (strideFrom 1 ts) us h])
      (S := fun i => (unlin dst.grid i, addIdx st (mulIdx (unlin dst.grid i) dst.basetile))) (g := gt) (n := dst.ntiles)
      (by
        intro i hi
        exact randnTileNext_spec dst.grid_pos (by rw [hst, hgl]) (by rw [hd.2.2, hgl]) hi)
      (by
        intro i hi
        simp only [Tensor.handleL_ok hi, M.bind_ok]
        rfl)
    rw [hloop]
    -- each tile
    have htile : ∀ i, i < dst.ntiles → ∃ b', randnKernel uniform normal (dst.tshapeL i).prod seed
        (addIdx st (mulIdx (dst.tindex i) dst.basetile)) (dst.tshapeL i) us (strideFrom 1 (dst.tshapeL i))
        (Buf.undef (s (dst.id, i)).size) = .ok b' ∧ b'.size = (s (dst.id, i)).size ∧
        ∀ l, InBox (dst.tshapeL i) l → b'.data (lin (dst.tshapeL i) l) =
          some (nthNormal uniform normal seed (lin us (addIdx st (globIdx dst.basetile (dst.tindex i) l)))) := by
      intro i hi
      have htb := dst.tindex_inBox i
      have hpos := hd.tshape_pos htb
      have hlen : (dst.tshapeL i).length = dst.shape.length := hd.tshape_length htb
      have hne : dst.tshapeL i ≠ [] := by
        intro h; rw [h] at hlen; exact h0 hlen.symm
      have hml : (mulIdx (dst.tindex i) dst.basetile).length = dst.shape.length := by
        rw [mulIdx_length (by rw [htb.length, hgl, hd.2.2]), hd.2.2]
      obtain ⟨b', e, k1, k2, k3⟩ := randn_spec (uniform := uniform) (normal := normal) (seed := seed)
        (start := addIdx st (mulIdx (dst.tindex i) dst.basetile)) (shape := dst.tshapeL i) (U := us)
        (stride := strideFrom 1 (dst.tshapeL i)) (buf := Buf.undef (s (dst.id, i)).size) hne hpos
        (by rw [addIdx_length (by rw [hml, hst]), hst, hlen]) (by simp)
        (forall₂_le_trans (tileShape_le_shape hd.2.2 (by rw [htb.length, hgl])) (forall₂_addIdx_le hst hle))
        (by intro j hj; rw [dot_stride, Buf.undef_size, ha i hi]; exact lin_lt hj)
        (by intro a b hA hB h; rw [dot_stride, dot_stride] at h; exact lin_inj hA hB h)
      refine ⟨b', e, k1, ?_⟩
      intro l hl
      have := k2 l hl
      rw [dot_stride] at this
      rw [this, globIdx_eq_addIdx, addIdx_assoc]
    choose! fin hfin using htile
    obtain ⟨s', h1, h2, h3⟩ := runAll1_tensor (ts := (List.range dst.ntiles).flatMap gt) (s := s) dst.id dst.ntiles fin
      (by
        intro t ht
        simp only [List.mem_flatMap, List.mem_range, gt, List.mem_singleton] at ht
        obtain ⟨i, hi, rfl⟩ := ht
        exact ⟨i, hi, rfl⟩)
      (by
        intro t ht
        simp only [List.mem_flatMap, List.mem_range, gt, List.mem_singleton] at ht
        obtain ⟨i, hi, rfl⟩ := ht
        simp [submitRandn])
      (by
        intro i hi
        rw [filter_flatMap_unique i hi]
        · simp only [gt, List.filter_cons, submitRandn, decide_true, if_true, List.filter_nil, foldBuf, Task1.inp, (hfin i hi).1, M.bind_ok]
        · intro j hj hji t ht
          simp only [gt, List.mem_singleton] at ht
          subst ht
          simp [submitRandn, hji])
    refine ⟨_, s', rfl, h1, ?_, OnlyChanged.of_tensor h3, ?_⟩
    · intro I hI
      have hti := hd.tileIdx_inBox hI
      have hli := hd.locIdx_inBox hI
      have hlt : lin dst.grid (tileIdx dst.basetile I) < dst.ntiles := lin_lt hti
      have hx := (hfin _ hlt).2.2 (locIdx dst.basetile I)
      simp only [Tensor.tshapeL, Tensor.tindex_lin hti] at hx
      have := hx hli
      rw [globIdx_tile_loc (by rw [hI.length, hd.2.2])] at this
      simp only [Tensor.get, Tensor.hOf, Tensor.oOf, h2 _ hlt, this]
    · intro i hi
      rw [h2 i hi, (hfin i hi).2.1]; exact ha i hi

end NNTile
