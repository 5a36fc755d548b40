import Verif.Lib.CudaGroup
import Verif.Lib.CudaGrid
/-! CUDA kernels whose threads process several items. -/
namespace NNTile
variable {α : Type} [FP α]

/-- The effect of a piece of a program. -/
def PM.Den {β : Type} (f : PM α β) (r : Mem α → M (β × Mem α)) : Prop := ∀ (k : β → Prog α) m, (f k).run m = (r m).bind fun x => (k x.1).run x.2

theorem PM.Den.seq {f : PM α Unit} {r} (h : f.Den r) : f.Seq [f.prog] := by
  intro k m
  rw [h k m]
  simp only [runProgs]
  unfold PM.prog
  rw [h]
  cases hr : r m with
  | error e => rfl
  | ok x => rfl

/-- A piece of a program without barriers. -/
def PM.HasDen {β : Type} (f : PM α β) : Prop := ∃ r, f.Den r

theorem den_ld (b i : Nat) : (ld b i : PM α α).HasDen :=
  ⟨fun m => (m.rd (.glob b, i)).bind fun v => .ok (v, m), fun k m => by
    change (m.rd (.glob b, i)).bind _ = ((m.rd (.glob b, i)).bind _).bind _
    cases m.rd (.glob b, i) <;> rfl⟩

theorem den_st (b i : Nat) (v : α) : (st b i v : PM α Unit).HasDen :=
  ⟨fun m => (m.wr (.glob b, i) v).bind fun m => .ok ((), m), fun k m => by
    change (m.wr (.glob b, i) v).bind _ = ((m.wr (.glob b, i) v).bind _).bind _
    cases m.wr (.glob b, i) v <;> rfl⟩

theorem den_pure {β : Type} (b : β) : (pure b : PM α β).HasDen := ⟨fun m => .ok (b, m), fun _ _ => rfl⟩

theorem den_bind {β γ : Type} {f : PM α β} {g : β → PM α γ} (hf : f.HasDen) (hg : ∀ b, (g b).HasDen) : (f >>= g).HasDen := by
  obtain ⟨r, hf⟩ := hf
  choose s hg using hg
  refine ⟨fun m => (r m).bind fun x => s x.1 x.2, ?_⟩
  intro k m
  change (f fun b => g b k).run m = _
  rw [hf]
  change _ = ((r m).bind _).bind _
  cases r m with
  | error e => rfl
  | ok x => exact hg x.1 k x.2

theorem den_forP {σ : Type} {f : Nat → σ → PM α σ} (hf : ∀ i s, (f i s).HasDen) (n : Nat) (s : σ) : (forP n f s).HasDen := by
  choose r hf using hf
  induction n with
  | zero => exact ⟨fun m => .ok (s, m), fun _ _ => rfl⟩
  | succ n ih =>
    obtain ⟨r', h⟩ := ih
    refine ⟨fun m => (r' m).bind fun x => r n x.1 x.2, ?_⟩
    intro k m
    simp only [forP]
    rw [h]
    cases r' m with
    | error e => rfl
    | ok x => exact hf n x.1 k x.2

/-- A loop which only reads. -/
theorem run_forP_read {σ : Type} {f : Nat → σ → PM α σ} {m : Mem α} {step : Nat → σ → M σ} (hf : ∀ i s k, (f i s k).run m = (step i s).bind fun s => (k s).run m) (n : Nat) (s : σ) (k : σ → Prog α) :
    (forP n f s k).run m = (forN n step s).bind fun s => (k s).run m := by
  induction n generalizing k with
  | zero => rfl
  | succ n ih =>
    simp only [forP]
    rw [ih, forN_succ]
    cases forN n step s with
    | error e => rfl
    | ok x => exact hf n x k

/-- A loop which updates the output. -/
theorem run_forP_dst {g : Launch α} {srcs : List (Buf α)} {f : Nat → Unit → PM α Unit} {step : Nat → Buf α → M (Buf α)} (n : Nat)
    (hf : ∀ i < n, ∀ d d', step i d = .ok d' → ∀ k, (f i () k).run (g.mem (taskBufs d srcs)) = (k ()).run (g.mem (taskBufs d' srcs))) {d d' : Buf α} (h : forN n step d = .ok d') (k : Unit → Prog α) :
    (forP n f () k).run (g.mem (taskBufs d srcs)) = (k ()).run (g.mem (taskBufs d' srcs)) := by
  induction n generalizing k d' with
  | zero => cases h; rfl
  | succ n ih =>
    simp only [forP]
    rw [forN_succ] at h
    obtain ⟨d1, h1, h⟩ := M.bind_eq_ok.1 h
    rw [ih (fun i hi => hf i (by omega)) h1]
    exact hf n (by omega) d1 d' h k

/-! ### Strides -/

/-- The indices of a loop with a stride. -/
def strided (start n step : Nat) : List Nat := (List.range (strideCount start n step)).map fun q => start + q * step

theorem mem_strided {start n step : Nat} (hs : start < step) {i : Nat} : i ∈ strided start n step ↔ i < n ∧ i % step = start := by
  simp only [strided, List.mem_map, List.mem_range, strideCount]
  have hstep : 0 < step := by omega
  constructor
  · rintro ⟨q, hq, rfl⟩
    refine ⟨?_, by rw [Nat.add_mul_mod_self_right, Nat.mod_eq_of_lt hs]⟩
    have := Nat.mul_le_of_le_div step (q+1) _ hq
    rw [Nat.add_mul] at this
    omega
  · rintro ⟨hi, rfl⟩
    refine ⟨i / step, ?_, by rw [Nat.mul_comm]; exact Nat.mod_add_div i step⟩
    show i / step + 1 ≤ _
    rw [Nat.le_div_iff_mul_le hstep, Nat.add_mul]
    have := Nat.mod_add_div i step
    rw [Nat.mul_comm] at this
    omega

theorem strided_nodup {start n step : Nat} (hs : start < step) : (strided start n step).Nodup := by
  refine List.Nodup.map (fun a b h => ?_) List.nodup_range
  have h : start + a * step = start + b * step := h
  exact Nat.eq_of_mul_eq_mul_right (show 0 < step by omega) (by omega)

/-- A one-dimensional grid of `gx` blocks of `bx` threads, and of loops with a stride. -/
theorem stride1_gives {bx gx : Nat} (hb : 0 < bx) (hb' : bx ≤ 1024) (hgx : 0 < gx) (hgx' : gx < 2^16) (n : Nat) (body : Nat → PM α Unit) (g : Launch α)
    (hgr : g.grid = ⟨gx, 1, 1⟩) (hth : g.threads = ⟨bx, 1, 1⟩)
    (hbody : ∀ t, g.Has t → g.body t = PM.prog (forP (strideCount (t.thr.x + t.blk.x * bx) n (bx * gx)) (fun q _ => body (t.thr.x + t.blk.x * bx + q * (bx * gx))) ()))
    (srcs : List (Buf α)) (dst : Buf α) (own : Nat → Nat → Prop) (hdisj : ∀ i j x, i ≠ j → own i x → ¬ own j x)
    (hden : ∀ i, (body i).HasDen)
    (hfoot : ∀ g : Launch α, ∀ i < n, ∀ own' : Loc → Prop, (∀ l, l.1 = .glob 0 ∧ own i l.2 → own' l) →
      (body i).FootK (g.mem (taskBufs dst srcs)) own' (fun l => ∃ b, l.1 = .glob (b+1)) (fun _ => False))
    (step : Nat → Buf α → M (Buf α))
    (hrun : ∀ g : Launch α, ∀ i < n, ∀ d d', step i d = .ok d' → ((body i).prog).run (g.mem (taskBufs d srcs)) = .ok (g.mem (taskBufs d' srcs)))
    {dst' : Buf α} (h : forN n step dst = .ok dst') : g.Gives srcs dst dst' := by
  rw [forN_items] at h
  have hN : 0 < bx * gx := Nat.mul_pos hb hgx
  have hv : g.Valid := by
    simp only [Launch.Valid, hgr, hth]
    omega
  have hthr : ∀ t ∈ List.range (bx * gx), g.start (ewTid bx t) = (forP (strideCount t n (bx * gx)) (fun q _ => body (t + q * (bx * gx))) ()).prog := by
    intro t ht
    have ht := List.mem_range.1 ht
    have hh : g.Has (ewTid bx t) := by
      simp only [Launch.Has, hgr, hth, ewTid]
      exact ⟨Nat.div_lt_of_lt_mul ht, by omega, by omega, Nat.mod_lt _ hb, by omega, by omega⟩
    unfold Launch.start
    rw [if_pos ⟨hv, hh⟩, hbody _ hh]
    simp only [ewTid]
    rw [show t % bx + t / bx * bx = t by rw [Nat.mul_comm]; exact Nat.mod_add_div t bx]
  refine g.gives_of_groups srcs dst (List.range n) List.nodup_range (List.range (bx * gx)) (fun t => strided t n (bx * gx)) ?_ List.nodup_range (ewTid bx)
    (fun _ _ _ _ e => ewTid_inj e) ?_ (fun i => (body i).prog) (fun t => forP (strideCount t n (bx * gx)) (fun q _ => body (t + q * (bx * gx))) ()) hthr ?_ own
    (fun i _ j _ => hdisj i j |> fun f hij x => f x hij) ?_ ?_ step ?_ h
  · rw [List.perm_ext_iff_of_nodup List.nodup_range]
    · intro i
      simp only [List.mem_range, List.mem_flatMap]
      constructor
      · intro hi
        have := Nat.mod_lt i hN
        exact ⟨i % (bx*gx), this, (mem_strided this).2 ⟨hi, rfl⟩⟩
      · rintro ⟨t, ht, hi⟩
        exact ((mem_strided ht).1 hi).1
    · rw [List.nodup_flatMap]
      refine ⟨fun t ht => strided_nodup (List.mem_range.1 ht), ?_⟩
      refine List.Pairwise.imp_of_mem ?_ List.nodup_range
      intro a b ha hb hab i hi hj
      exact hab (((mem_strided (List.mem_range.1 ha)).1 hi).2.symm.trans ((mem_strided (List.mem_range.1 hb)).1 hj).2)
  · intro t ht
    unfold Launch.start
    split
    swap
    · rfl
    next hh =>
    obtain ⟨_, hh⟩ := hh
    have hh' := hh
    simp only [Launch.Has, hgr, hth] at hh
    refine absurd ?_ (ht (t.thr.x + t.blk.x * bx) (List.mem_range.2 ?_))
    · obtain ⟨⟨b1, b2, b3⟩, ⟨t1, t2, t3⟩⟩ := t
      simp only at hh
      obtain rfl : b2 = 0 := by omega
      obtain rfl : b3 = 0 := by omega
      obtain rfl : t2 = 0 := by omega
      obtain rfl : t3 = 0 := by omega
      simp only [ewTid, (tid_eta hh.2.2.2.1).1, (tid_eta hh.2.2.2.1).2]
    · have := Nat.mul_le_mul_right bx (show t.blk.x + 1 ≤ gx from hh.1)
      rw [Nat.add_mul, Nat.mul_comm gx] at this
      omega
  · intro t ht
    have := forP_seq (fun q => body (t + q * (bx * gx))) (fun q => [(body (t + q * (bx * gx))).prog]) (fun q => (hden _).choose_spec.seq) (strideCount t n (bx * gx))
    have e : ((List.range (strideCount t n (bx * gx))).flatMap fun q => [(body (t + q * (bx * gx))).prog]) = (strided t n (bx*gx)).map fun i => (body i).prog := by
      rw [strided, List.map_map, ← List.flatMap_pure_eq_map]; rfl
    rw [e] at this
    exact this
  · intro i hi
    exact hfoot g i (List.mem_range.1 hi) _ (fun _ h => h) _ trivial
  · intro t ht
    refine forP_footK _ _ fun q hq => ?_
    have hm : t + q * (bx * gx) ∈ strided t n (bx*gx) := List.mem_map.2 ⟨q, List.mem_range.2 hq, rfl⟩
    refine hfoot g _ ((mem_strided (List.mem_range.1 ht)).1 hm).1 _ fun l hl => ⟨hl.1, _, hm, hl.2⟩
  · intro i hi
    exact hrun g i (List.mem_range.1 hi)

/-- The thread `(s2, s1)` of a two-dimensional grid. -/
def stTid (p : Nat × Nat) : Tid := ⟨⟨p.1 / 8, p.2 / 4, 0⟩, ⟨p.1 % 8, p.2 % 4, 0⟩⟩

theorem stTid_inj {p q : Nat × Nat} (h : stTid p = stTid q) : p = q := by
  simp only [stTid, Tid.mk.injEq, Dim3.mk.injEq] at h
  exact Prod.ext (by omega) (by omega)

theorem mem_product_range {a b : Nat} {p : Nat × Nat} : p ∈ (List.range a).product (List.range b) ↔ p.1 < a ∧ p.2 < b := by
  obtain ⟨x, y⟩ := p
  simp [List.product]

theorem stride2_gives {n m : Nat} (body : Nat → Nat → PM α Unit) (srcs : List (Buf α)) (dst : Buf α)
    (own : Nat × Nat → Nat → Prop) (hdisj : ∀ p q : Nat × Nat, p.1 < n → p.2 < m → q.1 < n → q.2 < m → p ≠ q → ∀ x, own p x → ¬ own q x)
    (hden : ∀ i j, (body i j).HasDen)
    (hfoot : ∀ g : Launch α, ∀ i j, i < n → j < m → ∀ own' : Loc → Prop, (∀ l, l.1 = .glob 0 ∧ own (i, j) l.2 → own' l) →
      (body i j).FootK (g.mem (taskBufs dst srcs)) own' (fun l => ∃ b, l.1 = .glob (b+1)) (fun _ => False))
    (step : Nat → Nat → Buf α → M (Buf α))
    (hrun : ∀ g : Launch α, ∀ i j, i < n → j < m → ∀ d d', step i j d = .ok d' → ((body i j).prog).run (g.mem (taskBufs d srcs)) = .ok (g.mem (taskBufs d' srcs)))
    {dst' : Buf α} (h : forN n (fun i d => forN m (fun j d => step i j d) d) dst = .ok dst') : (stride2Launch n m body).Gives srcs dst dst' := by
  rw [forN2_items] at h
  have hv : (stride2Launch n m body).Valid := by
    simp only [Launch.Valid, stride2Launch]
    omega
  let thr : Nat × Nat → PM α Unit := fun t => forP (strideCount t.1 n 128) (fun q _ => forP (strideCount t.2 m 64) (fun r _ => body (t.1 + q * 128) (t.2 + r * 64)) ()) ()
  have hthr : ∀ t ∈ (List.range 128).product (List.range 64), (stride2Launch n m body).start (stTid t) = (thr t).prog := by
    intro t ht
    have ht := mem_product_range.1 ht
    have hh : (stride2Launch n m body).Has (stTid t) := by
      simp only [Launch.Has, stride2Launch, stTid]
      omega
    unfold Launch.start
    rw [if_pos ⟨hv, hh⟩]
    simp only [stTid, stride2Launch]
    have e1 : t.1 % 8 + t.1 / 8 * 8 = t.1 := by omega
    have e2 : t.2 % 4 + t.2 / 4 * 4 = t.2 := by omega
    rw [gidIndex_eq (by omega), gidIndex_eq (by omega), e1, e2]
  have hmem : ∀ t : Nat × Nat, t.1 < 128 → t.2 < 64 → ∀ i : Nat × Nat, i ∈ (strided t.1 n 128).product (strided t.2 m 64) ↔ (i.1 < n ∧ i.2 < m) ∧ (i.1 % 128 = t.1 ∧ i.2 % 64 = t.2) := by
    intro t h1 h2 i
    have : i ∈ (strided t.1 n 128).product (strided t.2 m 64) ↔ i.1 ∈ strided t.1 n 128 ∧ i.2 ∈ strided t.2 m 64 := by
      obtain ⟨x, y⟩ := i; simp [List.product]
    rw [this, mem_strided h1, mem_strided h2]
    tauto
  refine (stride2Launch n m body).gives_of_groups srcs dst _ (List.Nodup.product List.nodup_range List.nodup_range) ((List.range 128).product (List.range 64))
    (fun t => (strided t.1 n 128).product (strided t.2 m 64)) ?_ (List.Nodup.product List.nodup_range List.nodup_range) stTid
    (fun _ _ _ _ e => stTid_inj e) ?_ (fun i => (body i.1 i.2).prog) thr hthr ?_ own
    (fun p hp q hq hpq x => hdisj p q (mem_product_range.1 hp).1 (mem_product_range.1 hp).2 (mem_product_range.1 hq).1 (mem_product_range.1 hq).2 hpq x) ?_ ?_ _ ?_ h
  · rw [List.perm_ext_iff_of_nodup (List.Nodup.product List.nodup_range List.nodup_range)]
    · intro i
      simp only [List.mem_flatMap]
      constructor
      · intro hi
        have hi := mem_product_range.1 hi
        have h1 : i.1 % 128 < 128 := Nat.mod_lt _ (by omega)
        have h2 : i.2 % 64 < 64 := Nat.mod_lt _ (by omega)
        exact ⟨(i.1 % 128, i.2 % 64), mem_product_range.2 ⟨h1, h2⟩, (hmem _ h1 h2 i).2 ⟨hi, rfl, rfl⟩⟩
      · rintro ⟨t, ht, hi⟩
        have ht := mem_product_range.1 ht
        exact mem_product_range.2 ((hmem t ht.1 ht.2 i).1 hi).1
    · rw [List.nodup_flatMap]
      refine ⟨fun t ht => List.Nodup.product (strided_nodup (mem_product_range.1 ht).1) (strided_nodup (mem_product_range.1 ht).2), ?_⟩
      refine List.Pairwise.imp_of_mem ?_ (List.Nodup.product List.nodup_range List.nodup_range)
      intro a b ha hb hab i hi hj
      have ha := mem_product_range.1 ha
      have hb := mem_product_range.1 hb
      have h1 := ((hmem a ha.1 ha.2 i).1 hi).2
      have h2 := ((hmem b hb.1 hb.2 i).1 hj).2
      exact hab (Prod.ext (h1.1.symm.trans h2.1) (h1.2.symm.trans h2.2))
  · intro t ht
    unfold Launch.start
    split
    swap
    · rfl
    next hh =>
    obtain ⟨_, hh⟩ := hh
    simp only [Launch.Has, stride2Launch] at hh
    refine absurd ?_ (ht (t.thr.x + t.blk.x * 8, t.thr.y + t.blk.y * 4) (mem_product_range.2 ⟨?_, ?_⟩))
    · obtain ⟨⟨b1, b2, b3⟩, ⟨t1, t2, t3⟩⟩ := t
      simp only at hh
      obtain rfl : b3 = 0 := by omega
      obtain rfl : t3 = 0 := by omega
      simp only [stTid, (tid_eta hh.2.2.2.1).1, (tid_eta hh.2.2.2.1).2, (tid_eta hh.2.2.2.2.1).1, (tid_eta hh.2.2.2.2.1).2]
    · simp only; omega
    · simp only; omega
  · intro t ht
    have h1 := fun q => forP_seq (fun r => body (t.1 + q * 128) (t.2 + r * 64)) (fun r => [(body (t.1 + q * 128) (t.2 + r * 64)).prog]) (fun r => (hden _ _).choose_spec.seq) (strideCount t.2 m 64)
    have h2 := forP_seq _ _ h1 (strideCount t.1 n 128)
    have e : ((List.range (strideCount t.1 n 128)).flatMap fun q => (List.range (strideCount t.2 m 64)).flatMap fun r => [(body (t.1 + q * 128) (t.2 + r * 64)).prog]) =
        ((strided t.1 n 128).product (strided t.2 m 64)).map fun i => (body i.1 i.2).prog := by
      simp only [strided, List.product, List.map_flatMap, List.flatMap_map, List.map_map]
      congr 1
      funext q
      rw [← List.flatMap_pure_eq_map]; rfl
    rw [e] at h2
    exact h2
  · intro i hi
    have hi := mem_product_range.1 hi
    exact hfoot _ _ _ hi.1 hi.2 _ (fun _ h => h) _ trivial
  · intro t ht
    have ht := mem_product_range.1 ht
    refine forP_footK _ _ fun q hq => forP_footK _ _ fun r hr => ?_
    have hm1 : t.1 + q * 128 ∈ strided t.1 n 128 := List.mem_map.2 ⟨q, List.mem_range.2 hq, rfl⟩
    have hm2 : t.2 + r * 64 ∈ strided t.2 m 64 := List.mem_map.2 ⟨r, List.mem_range.2 hr, rfl⟩
    exact hfoot _ _ _ ((mem_strided ht.1).1 hm1).1 ((mem_strided ht.2).1 hm2).1 _ fun l hl =>
      ⟨hl.1, (t.1 + q * 128, t.2 + r * 64), by simp only [List.product, List.mem_flatMap, List.mem_map]; exact ⟨_, hm1, _, hm2, rfl⟩, hl.2⟩
  · intro i hi
    have hi := mem_product_range.1 hi
    exact hrun _ _ _ hi.1 hi.2

/-! ### Kernels -/

/-- `pow`, when the exponent is not `-1`. -/
theorem powCuda_gives {n : Nat} {alpha exp : α} (he : FP.eqb exp (-1) = false) {dst dst' : Buf α} (h : powKernel n alpha exp dst = .ok dst') :
    (powCuda n alpha exp).Gives [] dst dst' := by
  unfold powKernel at h
  refine stride1_gives (bx := 256) (gx := 256) (by omega) (by omega) (by omega) (by omega) n (fun i => do
      let z ← ld 0 i
      st 0 i (alpha * FP.pow z exp)) (powCuda n alpha exp) rfl rfl ?_ [] dst (fun i x => x = i) (fun i j x hij h1 h2 => hij (h1.symm.trans h2)) ?_ ?_ _ ?_ h
  · intro t ht
    simp only [Launch.Has, powCuda] at ht
    simp only [powCuda]
    rw [gidInt_eq (by omega)]
    rfl
  · intro i
    exact den_bind (den_ld _ _) fun _ => den_st _ _ _
  · intro g i _ own' hown k hk
    exact Or.inl ⟨hown _ ⟨rfl, rfl⟩, fun v => ⟨hown _ ⟨rfl, rfl⟩, hk⟩⟩
  · intro g i _ d d' h
    obtain ⟨z, hz, h⟩ := M.bind_eq_ok.1 h
    simp only [he, Bool.false_eq_true, if_false] at h
    simp only [PM.prog, bind, run_ld_dst, run_st, hz, h, Except.bind, Prog.run]

theorem sumnormCuda_gives {m n k : Nat} {src dst dst' : Buf α} (h : sumnormKernel m n k src dst = .ok dst') : (sumnormCuda m n k : Launch α).Gives [src] dst dst' := by
  unfold sumnormKernel at h
  unfold sumnormCuda
  refine stride2_gives _ [src] dst (fun p x => x / 2 = p.1 * m + p.2) ?_ ?_ ?_ _ ?_ h
  · rintro ⟨a, b⟩ ⟨a', b'⟩ _ hb _ hb' hpq x hx hy
    simp only at hb hb' hx hy
    rw [hx] at hy
    have h1 : b = b' := by
      have := congrArg (· % m) hy
      simpa [Nat.add_mod, Nat.mod_eq_of_lt hb, Nat.mod_eq_of_lt hb'] using this
    subst h1
    exact hpq (Prod.ext (Nat.eq_of_mul_eq_mul_right (show 0 < m by omega) (Nat.add_right_cancel hy)) rfl)
  · intro i j
    exact den_bind (den_ld _ _) fun _ => den_bind (den_ld _ _) fun _ => den_bind (den_forP (fun _ _ => den_bind (den_ld _ _) fun _ => den_pure _) _ _) fun _ => den_bind (den_st _ _ _) fun _ => den_st _ _ _
  · intro g i j _ _ own' hown kk hk
    have h0 : own' (.glob 0, 2*(j + i*m)) := hown _ ⟨rfl, by simp only; omega⟩
    have h1 : own' (.glob 0, 2*(j + i*m) + 1) := hown _ ⟨rfl, by simp only; omega⟩
    refine Or.inl ⟨h0, fun s => Or.inl ⟨h1, fun c => ?_⟩⟩
    have : ∀ (kk' : Nat) (p : SnAcc α) (k2 : SnAcc α → Prog α), (∀ p, (k2 p).Foot (g.mem (taskBufs dst [src])) own' (fun l => ∃ b, l.1 = .glob (b+1)) (fun _ => False)) →
        (forP kk' (fun i0 p => do
          let val ← ld 1 (i*(m*k) + j + i0*m)
          pure (snStep val p)) p k2).Foot (g.mem (taskBufs dst [src])) own' (fun l => ∃ b, l.1 = .glob (b+1)) (fun _ => False) := by
      intro kk'
      induction kk' with
      | zero => intro p k2 hk2; exact hk2 p
      | succ kk' ih =>
        intro p k2 hk2
        refine ih p _ fun p => ?_
        exact Or.inr ⟨⟨0, rfl⟩, fun v _ => hk2 _⟩
    refine this k _ _ fun p => ?_
    exact ⟨h0, h1, hk⟩
  · intro g i j _ _ d d' h
    obtain ⟨sum, hsum, h⟩ := M.bind_eq_ok.1 h
    obtain ⟨scale, hscale, h⟩ := M.bind_eq_ok.1 h
    obtain ⟨p, hp, h⟩ := M.bind_eq_ok.1 h
    obtain ⟨d1, hd1, h⟩ := M.bind_eq_ok.1 h
    rw [Nat.add_comm (i*m) j] at hsum hscale hd1 h
    simp only [PM.prog, bind, run_ld_dst, hsum, hscale, Except.bind]
    rw [run_forP_read (step := fun i0 p => do
        let val ← src.rd (i*(m*k) + j + i0*m)
        .ok (snStep val p))]
    · rw [hp]
      simp only [Except.bind, run_st, hd1, h, Prog.run]
    · intro q s kk
      simp only [run_ld_src, List.getD_cons_zero, pure]
      cases src.rd (i*(m*k) + j + q*m) <;> rfl

theorem Buf.wr_wr_same {b b1 b2 : Buf α} {i : Nat} {v w : α} (h : b.wr i w = .ok b2) (h1 : b.wr i v = .ok b1) : b1.wr i w = .ok b2 := by
  unfold Buf.wr at h h1
  split at h
  swap
  · cases h
  next hi =>
  rw [if_pos hi] at h1
  cases h1
  cases h
  simp only [Buf.wr, if_pos hi]
  congr 2
  funext j
  by_cases hj : j = i <;> simp [hj]

theorem Buf.wr_any {b b2 : Buf α} {i : Nat} {w : α} (h : b.wr i w = .ok b2) (v : α) : ∃ b1, b.wr i v = .ok b1 := by
  unfold Buf.wr at h ⊢
  split at h
  swap
  · cases h
  next hi => rw [if_pos hi]; exact ⟨_, rfl⟩

theorem normalizeCuda_gives {m n k : Nat} {l : Int} {eps : α} {gamma_beta sumnorm dst dst' : Buf α} (h : normalizeKernel m n k l eps gamma_beta sumnorm dst = .ok dst') :
    (normalizeCuda m n k l eps).Gives [gamma_beta, sumnorm] dst dst' := by
  unfold normalizeKernel at h
  unfold normalizeCuda
  refine stride2_gives _ [gamma_beta, sumnorm] dst (fun p x => ∃ i0 < m, x = (p.1*k + p.2)*m + i0) ?_ ?_ ?_ _ ?_ h
  · rintro ⟨a, b⟩ ⟨a', b'⟩ _ hb _ hb' hpq x ⟨i0, hi0, hx⟩ ⟨i0', hi0', hy⟩
    simp only at hb hb' hx hy
    rw [hx] at hy
    obtain ⟨e1, e2, e3⟩ := idx3_inj hi0 hi0' hb hb' hy
    exact hpq (Prod.ext e1 e3)
  · intro i j
    exact den_forP (fun _ _ => den_bind (den_ld _ _) fun _ => den_bind (den_ld _ _) fun _ => den_bind (den_ld _ _) fun _ => den_bind (den_st _ _ _) fun _ => den_bind (den_ld _ _) fun _ =>
      den_bind (den_ld _ _) fun _ => den_bind (den_ld _ _) fun _ => den_st _ _ _) _ _
  · intro g i j _ _ own' hown
    refine forP_footK _ _ fun q hq k2 hk2 => ?_
    have h0 : own' (.glob 0, (i*k + j)*m + q) := hown _ ⟨rfl, q, hq, rfl⟩
    exact Or.inr ⟨⟨1, rfl⟩, fun _ _ => Or.inr ⟨⟨1, rfl⟩, fun _ _ => Or.inl ⟨h0, fun _ => ⟨h0, Or.inl ⟨h0, fun _ => Or.inr ⟨⟨0, rfl⟩, fun _ _ => Or.inr ⟨⟨0, rfl⟩, fun _ _ => ⟨h0, hk2⟩⟩⟩⟩⟩⟩⟩⟩
  · intro g i j _ _ d d' h
    refine (run_forP_dst m (fun q hq d d' h kk => ?_) h _)
    obtain ⟨val, hval, h⟩ := M.bind_eq_ok.1 h
    obtain ⟨sum, hsum, h⟩ := M.bind_eq_ok.1 h
    obtain ⟨norm, hnorm, h⟩ := M.bind_eq_ok.1 h
    obtain ⟨gamma, hgamma, h⟩ := M.bind_eq_ok.1 h
    obtain ⟨beta, hbeta, h⟩ := M.bind_eq_ok.1 h
    obtain ⟨d1, hd1⟩ := Buf.wr_any h ((val - sum * (1 / FP.ofIndex l)) / normalizeDev (sum * (1 / FP.ofIndex l)) (norm * FP.sqrt (1 / FP.ofIndex l)) (FP.sqrt eps))
    have h2 := Buf.wr_wr_same h hd1
    simp only [bind, run_ld_dst, run_ld_src, run_st, List.getD_cons_zero, List.getD_cons_succ, hsum, hnorm, hval, hd1, Except.bind, Buf.rd_wr_eq hd1, hgamma, hbeta]
    unfold normalizeVal at h2
    simp only at h2
    rw [h2]

end NNTile
