import Verif.Lib.CudaStride
import Verif.Lib.CrossEntropy
import Verif.Lib.RealFP
/-! The remaining CUDA kernels without barriers. -/
namespace NNTile
variable {α : Type} [FP α]

theorem runItems_all {ι σ : Type} {step : ι → σ → M σ} {K : List ι} {s s' : σ} (h : runItems step K s = .ok s') : ∀ i ∈ K, ∃ a b, step i a = .ok b := by
  induction K generalizing s with
  | nil => simp
  | cons j K ih =>
    simp only [runItems] at h
    obtain ⟨s1, h1, h⟩ := M.bind_eq_ok.1 h
    intro i hi
    rcases List.mem_cons.1 hi with rfl | hi
    · exact ⟨_, _, h1⟩
    · exact ih h i hi

/-! ### `add_fiber` -/

theorem addFiberCuda_gives {m n k batch : Nat} (hg : Grid3Ok k m n 1024 1 1) {alpha beta : α} (hb : FP.eqb beta 0 = false) {src dst dst' : Buf α}
    (h : addFiberKernel m n k batch alpha src beta dst = .ok dst') : ∃ g, addFiberCuda m n k batch alpha beta = .ok g ∧ g.Gives [src] dst dst' := by
  unfold addFiberKernel at h
  unfold addFiberCuda
  refine ⟨_, grid3Launch_eq hg _, ?_⟩
  let step : Nat × Nat × Nat × Nat → Buf α → M (Buf α) := fun p d => do
    let x ← src.rd (p.2.1 + p.1*k)
    let y ← d.rd (((p.2.2.1 + p.1*n)*k + p.2.1)*m + p.2.2.2)
    d.wr (((p.2.2.1 + p.1*n)*k + p.2.1)*m + p.2.2.2) (beta * y + alpha * x)
  let K : List (Nat × Nat × Nat × Nat) := (List.range batch).product ((List.range k).product ((List.range n).product (List.range m)))
  have hK : K.Nodup := List.Nodup.product List.nodup_range (prod3_nodup _ _ _)
  have hmK : ∀ p : Nat × Nat × Nat × Nat, p ∈ K ↔ p.1 < batch ∧ p.2.1 < k ∧ p.2.2.1 < n ∧ p.2.2.2 < m := by
    rintro ⟨x, y, z, w⟩
    simp [K, List.product]
  have hstep : runItems step K dst = .ok dst' := by
    have e : K = (List.range batch).flatMap fun b => ((List.range k).product ((List.range n).product (List.range m))).map fun q => (b, q) := rfl
    rw [e, runItems_flatMap, ← forN_items]
    refine forN_mono (fun b _ s s' hs => ?_) h
    rw [runItems_map]
    have := (forN3_items (fun i2 i1 i0 d => step (b, i2, i1, i0) d) k n m s)
    refine (this.symm.trans ?_)
    refine forN_mono (fun i2 _ s s' hs => ?_) hs
    obtain ⟨x, hx, hs⟩ := M.bind_eq_ok.1 hs
    refine forN_mono (fun i1 _ s s' hs => ?_) hs
    simp only [hb, Bool.false_eq_true, if_false] at hs
    simp only [step, hx, M.bind_ok]
    exact hs
  let item : Nat × Nat × Nat × Nat → PM α Unit := fun p => do
    let x ← ld 1 (p.2.1 + p.1*k)
    let src_val := alpha * x
    let dst_val ← ld 0 (((p.2.2.1 + p.1*n)*k + p.2.1)*m + p.2.2.2)
    st 0 (((p.2.2.1 + p.1*n)*k + p.2.1)*m + p.2.2.2) (beta * dst_val + src_val)
  let T : List (Nat × Nat × Nat) := (List.range k).product ((List.range m).product (List.range n))
  refine Launch.gives_of_groups _ [src] dst K hK T (fun t => (List.range batch).map fun b => (b, t.1, t.2.2, t.2.1)) ?_ (prod3_nodup _ _ _)
    (tid3 (dimOf k 1024) (dimOf m 1) (dimOf n 1)) (fun _ _ _ _ e => tid3_inj e) ?_ (fun p => (item p).prog) (fun t => forP batch (fun b _ => item (b, t.1, t.2.2, t.2.1)) ()) ?_ ?_
    (fun p x => x = ((p.2.2.1 + p.1*n)*k + p.2.1)*m + p.2.2.2) ?_ ?_ ?_ step ?_ hstep
  · rw [List.perm_ext_iff_of_nodup hK]
    · rintro ⟨b, i2, i1, i0⟩
      rw [hmK]
      simp only [List.mem_flatMap, T, mem_prod3, List.mem_map, List.mem_range, Prod.mk.injEq]
      constructor
      · rintro ⟨h1, h2, h3, h4⟩
        exact ⟨(i2, i0, i1), ⟨h2, h4, h3⟩, b, h1, rfl, rfl, rfl, rfl⟩
      · rintro ⟨⟨a, c, d⟩, ⟨h1, h2, h3⟩, b', h4, rfl, rfl, rfl, rfl⟩
        exact ⟨h4, h1, h3, h2⟩
    · rw [List.nodup_flatMap]
      refine ⟨fun t _ => List.Nodup.map (fun a b h => (Prod.mk.inj h).1) List.nodup_range, ?_⟩
      refine List.Pairwise.imp_of_mem ?_ (prod3_nodup k m n)
      rintro ⟨a1, a2, a3⟩ ⟨b1, b2, b3⟩ _ _ hab i hi hj
      obtain ⟨x, _, rfl⟩ := List.mem_map.1 hi
      obtain ⟨y, _, e⟩ := List.mem_map.1 hj
      simp only [Prod.mk.injEq] at e
      exact hab (by simp [e])
  · intro t ht
    exact grid3_cover hg _ t fun i0 i1 i2 h0 h1 h2 => ht (i0, i1, i2) (mem_prod3.2 ⟨h0, h1, h2⟩)
  · intro t ht
    have ht := mem_prod3.1 ht
    exact grid3_start hg _ ht.1 ht.2.1 ht.2.2
  · intro t _
    have h2 := forP_seq (fun b => item (b, t.1, t.2.2, t.2.1)) (fun b => [(item (b, t.1, t.2.2, t.2.1)).prog])
      (fun b => (den_bind (den_ld _ _) fun _ => den_bind (den_ld _ _) fun _ => den_st _ _ _ : (item (b, t.1, t.2.2, t.2.1)).HasDen).choose_spec.seq) batch
    rw [List.map_map]
    rw [show ((List.range batch).map ((fun p => (item p).prog) ∘ fun b => (b, t.1, t.2.2, t.2.1))) = (List.range batch).flatMap (fun b => [(item (b, t.1, t.2.2, t.2.1)).prog]) by
      rw [← List.flatMap_pure_eq_map]; rfl]
    exact h2
  · rintro ⟨b, i2, i1, i0⟩ hp ⟨b', i2', i1', i0'⟩ hq hpq x hx hy
    have hp := (hmK _).1 hp
    have hq := (hmK _).1 hq
    simp only at hp hq hx hy
    rw [hx] at hy
    obtain ⟨e1, e2, e3⟩ := idx3_inj hp.2.2.2 hq.2.2.2 hp.2.1 hq.2.1 hy
    have e4 : i1 = i1' := by
      have := congrArg (· % n) e1
      simpa [Nat.add_mod, Nat.mod_eq_of_lt hp.2.2.1, Nat.mod_eq_of_lt hq.2.2.1] using this
    subst e4 e2 e3
    have e5 : b = b' := Nat.eq_of_mul_eq_mul_right (show 0 < n by omega) (Nat.add_left_cancel e1)
    subst e5
    exact hpq rfl
  · intro p _
    exact Or.inr ⟨⟨0, rfl⟩, fun _ _ => Or.inl ⟨⟨rfl, rfl⟩, fun _ => ⟨⟨rfl, rfl⟩, trivial⟩⟩⟩
  · intro t _
    refine forP_footK _ _ fun b hb k2 hk2 => ?_
    have hm : (b, t.1, t.2.2, t.2.1) ∈ (List.range batch).map fun b => (b, t.1, t.2.2, t.2.1) := List.mem_map.2 ⟨b, List.mem_range.2 hb, rfl⟩
    exact Or.inr ⟨⟨0, rfl⟩, fun _ _ => Or.inl ⟨⟨rfl, _, hm, rfl⟩, fun _ => ⟨⟨rfl, _, hm, rfl⟩, hk2⟩⟩⟩
  · intro p _ d d' h
    obtain ⟨x, hx, h⟩ := M.bind_eq_ok.1 h
    obtain ⟨y, hy, h⟩ := M.bind_eq_ok.1 h
    simp only [PM.prog, item, bind, run_ld_dst, run_ld_src, run_st, List.getD_cons_zero, hx, hy, h, Except.bind, Prog.run]

/-! ### `embedding` -/

theorem embeddingCuda_gives {asIdx : α → Int} {m n k k_start k_size : Nat} (hg : Grid3Ok m n k_size 8 8 16) (hk : k_start + k_size ≤ k) {index vocab dst dst' : Buf α}
    (h : embeddingKernel asIdx m n k k_start k_size index vocab dst = .ok dst') :
    ∃ g, embeddingCuda asIdx m n k k_start k_size = .ok g ∧ g.Gives [index, vocab] dst dst' := by
  unfold embeddingKernel at h
  unfold embeddingCuda
  have hs : ∀ i2 i1 i0, ((i2*k + k_start)*m + i1 + i0*m) = (i2*k + k_start + i0)*m + i1 := by
    intro i2 i1 i0
    rw [Nat.add_mul _ i0]; omega
  let step : Nat → Nat → Nat → Buf α → M (Buf α) := fun i2 i1 i0 d => do
    let token ← index.rd (i2*m + i1)
    let o ← tokenOff k_size (asIdx token) i0
    let v ← vocab.rd o
    d.wr ((i2*k + k_start + i0)*m + i1) v
  have h : forN n (fun i2 d => forN m (fun i1 d => forN k_size (fun i0 d => step i2 i1 i0 d) d) d) dst = .ok dst' := by
    refine forN_mono (fun i2 _ s s' hs' => forN_mono (fun i1 _ s s' hs' => ?_) hs') h
    obtain ⟨x, hx, hs'⟩ := M.bind_eq_ok.1 hs'
    simp only [step, hx, M.bind_ok]
    simp only [hs] at hs'
    exact hs'
  rw [forN3_items] at h
  have hall := runItems_all h
  have htok : ∀ i2 i1 i0, i2 < n → i1 < m → i0 < k_size → ∀ t, index.rd (i2*m + i1) = .ok t → 0 ≤ asIdx t := by
    intro i2 i1 i0 h2 h1 h0 t ht
    obtain ⟨a, b, hab⟩ := hall (i2, i1, i0) (mem_prod3.2 ⟨h2, h1, h0⟩)
    simp only [step, ht, M.bind_ok] at hab
    obtain ⟨o, ho, _⟩ := M.bind_eq_ok.1 hab
    unfold tokenOff at ho
    split at ho
    · cases ho
    · omega
  refine grid3_gives hg _ [index, vocab] dst _ (prod3_nodup _ _ _) (fun p => (p.2.1, p.1, p.2.2)) ?_ ?_ ?_ (fun p x => x = (p.1*k + k_start + p.2.2)*m + p.2.1) ?_ _ ?_ ?_ h
  · rintro ⟨a, b, c⟩ _ ⟨a', b', c'⟩ _ e
    simp only [Prod.mk.injEq] at e ⊢
    omega
  · intro p hp
    have := mem_prod3.1 hp
    exact ⟨this.2.1, this.1, this.2.2⟩
  · intro i0 i1 i2 h0 h1 h2
    exact ⟨(i1, i0, i2), mem_prod3.2 ⟨h1, h0, h2⟩, rfl⟩
  · intro p hp q hq hpq x hx hy
    have hp := mem_prod3.1 hp
    have hq := mem_prod3.1 hq
    rw [hx, Nat.add_assoc (p.1*k), Nat.add_assoc (q.1*k)] at hy
    obtain ⟨e1, e2, e3⟩ := idx3_inj hp.2.1 hq.2.1 (by omega) (by omega) hy
    exact hpq (Prod.ext e1 (Prod.ext e2 (by omega)))
  · intro g p hp
    have hp := mem_prod3.1 hp
    simp only [PM.prog, bind]
    refine Or.inr ⟨⟨0, rfl⟩, fun t ht => ?_⟩
    have h0 := htok p.1 p.2.1 p.2.2 hp.1 hp.2.1 hp.2.2 t ht
    simp only [ite_apply, if_neg (show ¬ asIdx t < 0 by omega)]
    exact Or.inr ⟨⟨1, rfl⟩, fun v _ => ⟨⟨rfl, rfl⟩, trivial⟩⟩
  · intro g p hp d d' h
    simp only [step] at h
    obtain ⟨t, ht, h⟩ := M.bind_eq_ok.1 h
    obtain ⟨o, ho, h⟩ := M.bind_eq_ok.1 h
    unfold tokenOff at ho
    split at ho
    · cases ho
    next hn =>
    cases ho
    obtain ⟨v, hv, h⟩ := M.bind_eq_ok.1 h
    simp only [PM.prog, bind, run_ld_src, run_st, List.getD_cons_zero, List.getD_cons_succ, ht, Except.bind, ite_apply, if_neg hn, hv, Prog.run]
    rw [show d.wr ((p.1 * k + k_start + p.2.2) * m + p.2.1) v = _ from h]

/-! ### `mask_scalar` -/

theorem forN_ok_const {σ : Type} (n : Nat) (s : σ) : forN n (fun _ s => (.ok s : M σ)) s = .ok s := by
  induction n with
  | zero => rfl
  | succ n ih => rw [forN_succ, ih, M.bind_ok]

theorem maskScalarCuda_gives {asBool : α → Bool} {nrows ncols : Nat} (hr : nrows ≤ 2^31) (hc : ncols < 2^16) {val : α} {mask dst dst' : Buf α}
    (h : maskScalarKernel asBool nrows ncols mask val dst = .ok dst') : (maskScalarCuda asBool nrows ncols val).Gives [mask] dst dst' := by
  unfold maskScalarKernel at h
  let step : Nat → Nat → Buf α → M (Buf α) := fun i j d => do
    let b ← mask.rd i
    if !asBool b then d.wr (j*nrows + i) val else .ok d
  have h : forN nrows (fun i d => forN ncols (fun j d => step i j d) d) dst = .ok dst' := by
    refine forN_mono (fun i _ s s' hs => ?_) h
    obtain ⟨b, hb, hs⟩ := M.bind_eq_ok.1 hs
    simp only [step, hb, M.bind_ok]
    cases hab : asBool b
    · simp only [hab, Bool.not_false, if_true] at hs ⊢
      exact hs
    · simp only [hab, Bool.not_true, Bool.false_eq_true, if_false] at hs ⊢
      rw [forN_ok_const]; exact hs
  rw [forN2_items] at h
  have hu1 : uint32 (((nrows + 255) / 256 : Nat) : Int) = (nrows + 255) / 256 := uint32_eq (by omega)
  have hu2 : uint32 (ncols : Int) = ncols := uint32_eq (by omega)
  have hstart : ∀ p ∈ (List.range nrows).product (List.range ncols), (maskScalarCuda asBool nrows ncols val).start ⟨⟨p.1 / 256, p.2, 0⟩, ⟨p.1 % 256, 0, 0⟩⟩ = PM.prog (do
      let b ← ld 1 p.1
      if asBool b then pure () else st 0 (p.2 * nrows + p.1) val) := by
    intro p hp
    have hp := mem_product_range.1 hp
    have hv : (maskScalarCuda asBool nrows ncols val).Valid := by
      simp only [Launch.Valid, maskScalarCuda, hu1, hu2]
      omega
    have hh : (maskScalarCuda asBool nrows ncols val).Has ⟨⟨p.1 / 256, p.2, 0⟩, ⟨p.1 % 256, 0, 0⟩⟩ := by
      simp only [Launch.Has, maskScalarCuda, hu1, hu2]
      omega
    unfold Launch.start
    rw [if_pos ⟨hv, hh⟩]
    simp only [maskScalarCuda]
    rw [gidInt_eq (by omega), gidInt_eq (by omega), show p.1 % 256 + p.1 / 256 * 256 = p.1 by omega, show 0 + p.2 * 1 = p.2 by omega, if_pos (by omega), if_neg (by omega)]
    simp
  refine Launch.gives_of_items _ [mask] dst _ (List.Nodup.product List.nodup_range List.nodup_range) (fun p => ⟨⟨p.1 / 256, p.2, 0⟩, ⟨p.1 % 256, 0, 0⟩⟩) ?_ ?_ (fun p x => x = p.2 * nrows + p.1)
    (fun _ => False) ?_ (fun _ _ _ _ h => h) (fun _ h => h.elim) ?_ _ ?_ h
  · intro p _ q _ e
    simp only [Tid.mk.injEq, Dim3.mk.injEq] at e
    exact Prod.ext (by omega) (by omega)
  · intro t ht
    unfold Launch.start
    split
    swap
    · rfl
    next hh =>
    obtain ⟨_, hh⟩ := hh
    simp only [Launch.Has, maskScalarCuda, hu1, hu2] at hh
    simp only [maskScalarCuda]
    rw [gidInt_eq (by omega), gidInt_eq (by omega)]
    rw [if_neg]
    rintro ⟨c1, c2⟩
    refine ht (t.thr.x + t.blk.x * 256, t.blk.y) (mem_product_range.2 ⟨by simp only; omega, by simp only; omega⟩) ?_
    obtain ⟨⟨b1, b2, b3⟩, ⟨t1, t2, t3⟩⟩ := t
    simp only at hh
    obtain rfl : b3 = 0 := by omega
    obtain rfl : t2 = 0 := by omega
    obtain rfl : t3 = 0 := by omega
    simp only [(tid_eta hh.2.2.2.1).1, (tid_eta hh.2.2.2.1).2]
  · rintro ⟨a, b⟩ hp ⟨a', b'⟩ hq hpq x hx hy
    have hp := mem_product_range.1 hp
    have hq := mem_product_range.1 hq
    simp only at hp hq hx hy
    rw [hx] at hy
    have h1 : a = a' := by
      have := congrArg (· % nrows) hy
      simpa [Nat.add_mod, Nat.mod_eq_of_lt hp.1, Nat.mod_eq_of_lt hq.1] using this
    subst h1
    have h2 : b = b' := Nat.eq_of_mul_eq_mul_right (show 0 < nrows by omega) (Nat.add_right_cancel hy)
    subst h2
    exact hpq rfl
  · intro p hp
    rw [hstart p hp]
    simp only [PM.prog, bind, pure]
    refine Or.inr ⟨⟨0, rfl⟩, fun b _ => ?_⟩
    simp only [ite_apply]
    split
    · trivial
    · exact ⟨⟨rfl, rfl⟩, trivial⟩
  · intro p hp d d' h
    rw [hstart p hp]
    simp only [step] at h
    obtain ⟨b, hb, h⟩ := M.bind_eq_ok.1 h
    simp only [PM.prog, bind, pure, run_ld_src, List.getD_cons_zero, hb, Except.bind]
    cases hab : asBool b
    · simp only [hab, Bool.not_false, if_true, Bool.false_eq_true, if_false] at h ⊢
      simp only [run_st, h, Except.bind, Prog.run]
    · simp only [hab, Bool.not_true, Bool.false_eq_true, if_false, if_true] at h ⊢
      cases h; rfl

/-! ### `transpose` -/

theorem transposeCuda_gives {m n : Nat} (hmn : m * n ≤ 2^31) {alpha : α} {src dst dst' : Buf α} (h : transposeKernel m n alpha src dst = .ok dst') :
    (transposeCuda m n alpha).Gives [src] dst dst' := by
  unfold transposeKernel at h
  rw [forN2_items] at h
  have hu : uint32 (((m*n + 32 - 1) / 32 : Nat) : Int) = (m*n + 32 - 1) / 32 := uint32_eq (by omega)
  have hlin : ∀ i j, i < m → j < n → i + j*m < m*n := by
    intro i j hi hj
    have := Nat.mul_le_mul_right m (show j + 1 ≤ n from hj)
    rw [Nat.add_mul, Nat.mul_comm n] at this
    omega
  have hstart : ∀ p ∈ (List.range m).product (List.range n), (transposeCuda m n alpha).start (ewTid 32 (p.1 + p.2*m)) = PM.prog (do
      let x ← ld 1 (p.1 + p.2*m)
      st 0 (p.1*n + p.2) (alpha * x)) := by
    intro p hp
    have hp := mem_product_range.1 hp
    have hl := hlin _ _ hp.1 hp.2
    have hv : (transposeCuda m n alpha).Valid := by
      simp only [Launch.Valid, transposeCuda, hu]
      omega
    have hh : (transposeCuda m n alpha).Has (ewTid 32 (p.1 + p.2*m)) := by
      simp only [Launch.Has, transposeCuda, ewTid, hu]
      omega
    unfold Launch.start
    rw [if_pos ⟨hv, hh⟩]
    simp only [transposeCuda, ewTid]
    have e : (p.1 + p.2*m) % 32 + (p.1 + p.2*m) / 32 * 32 = p.1 + p.2*m := by omega
    rw [gidIndex_eq (by omega), e, Nat.add_mul_div_right _ _ (show 0 < m by omega), Nat.div_eq_of_lt hp.1, Nat.zero_add, Nat.add_sub_cancel, if_pos ⟨hp.1, hp.2⟩]
  refine Launch.gives_of_items _ [src] dst _ (List.Nodup.product List.nodup_range List.nodup_range) (fun p => ewTid 32 (p.1 + p.2*m)) ?_ ?_ (fun p x => x = p.1*n + p.2)
    (fun _ => False) ?_ (fun _ _ _ _ h => h) (fun _ h => h.elim) ?_ _ ?_ h
  · rintro ⟨a, b⟩ hp ⟨a', b'⟩ hq e
    have hp := mem_product_range.1 hp
    have hq := mem_product_range.1 hq
    have e := ewTid_inj e
    simp only at hp hq e
    have h1 : a = a' := by
      have := congrArg (· % m) e
      simpa [Nat.add_mod, Nat.mod_eq_of_lt hp.1, Nat.mod_eq_of_lt hq.1] using this
    subst h1
    have h2 : b = b' := Nat.eq_of_mul_eq_mul_right (show 0 < m by omega) (Nat.add_left_cancel e)
    subst h2
    rfl
  · intro t ht
    unfold Launch.start
    split
    swap
    · rfl
    next hh =>
    obtain ⟨_, hh⟩ := hh
    simp only [Launch.Has, transposeCuda, hu] at hh
    simp only [transposeCuda]
    rw [gidIndex_eq (by omega), if_neg]
    rintro ⟨c1, c2⟩
    have hd := Nat.div_add_mod (t.thr.x + t.blk.x * 32) m
    rw [Nat.mul_comm] at hd
    refine ht (t.thr.x + t.blk.x * 32 - (t.thr.x + t.blk.x * 32) / m * m, (t.thr.x + t.blk.x * 32) / m) (mem_product_range.2 ⟨c1, c2⟩) ?_
    simp only
    rw [show t.thr.x + t.blk.x * 32 - (t.thr.x + t.blk.x * 32) / m * m + (t.thr.x + t.blk.x * 32) / m * m = t.thr.x + t.blk.x * 32 by omega]
    obtain ⟨⟨b1, b2, b3⟩, ⟨t1, t2, t3⟩⟩ := t
    simp only at hh
    obtain rfl : b2 = 0 := by omega
    obtain rfl : b3 = 0 := by omega
    obtain rfl : t2 = 0 := by omega
    obtain rfl : t3 = 0 := by omega
    simp only [ewTid, (tid_eta hh.2.2.2.1).1, (tid_eta hh.2.2.2.1).2]
  · rintro ⟨a, b⟩ hp ⟨a', b'⟩ hq hpq x hx hy
    have hp := mem_product_range.1 hp
    have hq := mem_product_range.1 hq
    simp only at hp hq hx hy
    rw [hx] at hy
    have h1 : b = b' := by
      have := congrArg (· % n) hy
      simpa [Nat.add_mod, Nat.mod_eq_of_lt hp.2, Nat.mod_eq_of_lt hq.2] using this
    subst h1
    have h2 : a = a' := Nat.eq_of_mul_eq_mul_right (show 0 < n by omega) (Nat.add_right_cancel hy)
    subst h2
    exact hpq rfl
  · intro p hp
    rw [hstart p hp]
    exact Or.inr ⟨⟨0, rfl⟩, fun b _ => ⟨⟨rfl, rfl⟩, trivial⟩⟩
  · intro p hp d d' h
    rw [hstart p hp]
    obtain ⟨x, hx, h⟩ := M.bind_eq_ok.1 h
    simp only [PM.prog, bind, run_ld_src, run_st, List.getD_cons_zero, hx, h, Except.bind, Prog.run]

end NNTile
