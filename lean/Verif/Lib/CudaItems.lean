import Verif.Lib.CudaRun
import Verif.Model.CudaKernels
import Mathlib.Data.List.ProdSigma
import Mathlib.Tactic.Linarith
/-! From a loop over items to a launch with one thread per item. -/
namespace NNTile
variable {α : Type} [FP α]

/-! ### Loops as lists -/

/-- Execution of the steps of a list of items. -/
def runItems {ι σ : Type} (step : ι → σ → M σ) : List ι → σ → M σ
  | [], s => .ok s
  | i :: K, s => do
    let s ← step i s
    runItems step K s

theorem runItems_append {ι σ : Type} (step : ι → σ → M σ) (K L : List ι) (s : σ) : runItems step (K ++ L) s = (runItems step K s).bind (runItems step L) := by
  induction K generalizing s with
  | nil => rfl
  | cons i K ih =>
    simp only [List.cons_append, runItems]
    cases h : step i s with
    | error e => rfl
    | ok s => exact ih s

theorem runItems_map {ι κ σ : Type} (step : ι → σ → M σ) (f : κ → ι) (K : List κ) (s : σ) : runItems step (K.map f) s = runItems (fun k => step (f k)) K s := by
  induction K generalizing s with
  | nil => rfl
  | cons i K ih =>
    simp only [List.map_cons, runItems]
    cases h : step (f i) s with
    | error e => rfl
    | ok s => exact ih s

theorem runItems_flatMap {ι κ σ : Type} (step : ι → σ → M σ) (f : κ → List ι) (K : List κ) (s : σ) :
    runItems step (K.flatMap f) s = runItems (fun k => runItems step (f k)) K s := by
  induction K generalizing s with
  | nil => rfl
  | cons i K ih =>
    simp only [List.flatMap_cons, runItems_append, runItems]
    cases h : runItems step (f i) s with
    | error e => rfl
    | ok s => exact ih s

theorem forN_items {σ : Type} (f : Nat → σ → M σ) (n : Nat) (s : σ) : forN n f s = runItems f (List.range n) s := by
  induction n with
  | zero => rfl
  | succ n ih =>
    rw [List.range_succ, runItems_append, ← ih]
    change (forN n f s).bind _ = _
    cases h : forN n f s with
    | error e => rfl
    | ok s =>
      change f n s = (do let s ← f n s; runItems f [] s)
      cases f n s <;> rfl

theorem runItems_mono {ι σ : Type} {f g : ι → σ → M σ} : ∀ {K : List ι}, (∀ i ∈ K, ∀ s s', f i s = .ok s' → g i s = .ok s') → ∀ {s s' : σ}, runItems f K s = .ok s' → runItems g K s = .ok s' := by
  intro K
  induction K with
  | nil => intro _ s s' h; exact h
  | cons i K ih =>
    intro hfg s s' h
    simp only [runItems] at h ⊢
    obtain ⟨a, ha, h⟩ := M.bind_eq_ok.1 h
    rw [hfg i List.mem_cons_self _ _ ha, M.bind_ok]
    exact ih (fun j hj => hfg j (List.mem_cons_of_mem _ hj)) h

theorem forN_mono {σ : Type} {f g : Nat → σ → M σ} {n : Nat} (hfg : ∀ i, i < n → ∀ s s', f i s = .ok s' → g i s = .ok s') {s s' : σ} (h : forN n f s = .ok s') : forN n g s = .ok s' := by
  rw [forN_items] at h ⊢
  exact runItems_mono (fun i hi => hfg i (List.mem_range.1 hi)) h

theorem forN2_items {σ : Type} (f : Nat → Nat → σ → M σ) (n m : Nat) (s : σ) :
    forN n (fun i => forN m (f i)) s = runItems (fun p : Nat × Nat => f p.1 p.2) ((List.range n).product (List.range m)) s := by
  rw [forN_items, List.product, runItems_flatMap]
  congr 1
  funext i s
  rw [forN_items, runItems_map]

theorem forN3_items {σ : Type} (f : Nat → Nat → Nat → σ → M σ) (n m k : Nat) (s : σ) :
    forN n (fun i => forN m (fun j => forN k (f i j))) s =
      runItems (fun p : Nat × Nat × Nat => f p.1 p.2.1 p.2.2) ((List.range n).product ((List.range m).product (List.range k))) s := by
  rw [forN_items, List.product, runItems_flatMap]
  congr 1
  funext i s
  rw [forN2_items, runItems_map]

/-! ### The memory of a task -/

section
variable (g : Launch α) (d : Buf α) (srcs : List (Buf α))

theorem mem_rd_dst (i : Nat) : (g.mem (taskBufs d srcs)).rd (.glob 0, i) = d.rd i := rfl
theorem mem_rd_src (b i : Nat) : (g.mem (taskBufs d srcs)).rd (.glob (b+1), i) = (srcs.getD b ⟨0, fun _ => none⟩).rd i := rfl
theorem mem_wr_dst (i : Nat) (v : α) : (g.mem (taskBufs d srcs)).wr (.glob 0, i) v = (d.wr i v).bind fun d' => .ok (g.mem (taskBufs d' srcs)) := by
  change ((d.wr i v).bind fun b => .ok (Function.update (g.mem (taskBufs d srcs)) (Space.glob 0) b)) = _
  congr 1
  funext d'
  congr 1
  funext s
  match s with
  | .glob 0 => simp [Launch.mem, taskBufs]
  | .glob (b+1) => simp [Launch.mem, taskBufs]
  | .shared x => simp [Launch.mem]
end

/-! ### Execution of kernels -/

section
variable (g : Launch α) (d : Buf α) (srcs : List (Buf α))

theorem run_ld_dst (i : Nat) (k : α → Prog α) : Prog.run (ld 0 i k) (g.mem (taskBufs d srcs)) = (d.rd i).bind fun v => (k v).run (g.mem (taskBufs d srcs)) := rfl
theorem run_ld_src (b i : Nat) (k : α → Prog α) :
    Prog.run (ld (b+1) i k) (g.mem (taskBufs d srcs)) = ((srcs.getD b ⟨0, fun _ => none⟩).rd i).bind fun v => (k v).run (g.mem (taskBufs d srcs)) := rfl
theorem run_st (i : Nat) (v : α) (k : Unit → Prog α) : Prog.run (st 0 i v k) (g.mem (taskBufs d srcs)) = (d.wr i v).bind fun d' => (k ()).run (g.mem (taskBufs d' srcs)) := by
  change ((g.mem (taskBufs d srcs)).wr (.glob 0, i) v).bind _ = _
  rw [mem_wr_dst]
  cases d.wr i v <;> rfl
end

theorem Prog.Foot.mono {own own' free acc : Loc → Prop} {m0 : Mem α} (hoo : ∀ l, own l → own' l) : ∀ {p : Prog α}, p.Foot m0 own free acc → p.Foot m0 own' free acc := by
  intro p
  induction p with
  | rd l k ih =>
    rintro (⟨h1, h2⟩ | ⟨h1, h2⟩)
    · exact Or.inl ⟨hoo _ h1, fun v => ih v (h2 v)⟩
    · exact Or.inr ⟨h1, fun v hv => ih v (h2 v hv)⟩
  | wr l v k ih => rintro ⟨h1, h2⟩; exact ⟨hoo _ h1, ih h2⟩
  | atomicAdd l v k ih => rintro ⟨h1, h2⟩; exact ⟨h1.imp (hoo _) id, ih h2⟩
  | _ => intro h; exact h

/-- One thread per item; thread `i` owns the locations `own i`. `acc`: locations that are only accessed by atomic additions. -/
theorem Launch.works_of_items {ι σ : Type} (g : Launch α) (bufs : σ → Nat → Buf α) (K : List ι) (hK : K.Nodup) (tid : ι → Tid)
    (hinj : ∀ i ∈ K, ∀ j ∈ K, tid i = tid j → i = j) (hcov : ∀ t, (∀ i ∈ K, tid i ≠ t) → g.start t = .done) (own : ι → Loc → Prop) (free acc : Loc → Prop)
    (hdisj : ∀ i ∈ K, ∀ j ∈ K, i ≠ j → ∀ x, own i x → ¬ own j x) (hfree : ∀ i ∈ K, ∀ x, own i x → ¬ free x) (hacc : ∀ i ∈ K, ∀ x, own i x → ¬ acc x) (hfa : ∀ x, acc x → ¬ free x)
    (hcomm : ∀ x, acc x → ∀ a b c : α, a + b + c = a + c + b) (s : σ)
    (hfoot : ∀ i ∈ K, (g.start (tid i)).Foot (g.mem (bufs s)) (own i) free acc) (step : ι → σ → M σ)
    (hrun : ∀ i ∈ K, ∀ d d', step i d = .ok d' → (g.start (tid i)).run (g.mem (bufs d)) = .ok (g.mem (bufs d')))
    {s' : σ} (h : runItems step K s = .ok s') : g.Works (bufs s) fun bs => bs = bufs s' := by
  let o : Owned Tid := ⟨fun t l => ∃ i ∈ K, tid i = t ∧ own i l, free, acc⟩
  have ho : o.Ok α := by
    refine ⟨?_, ?_, ?_, hfa, hcomm⟩
    · rintro t u l htu ⟨i, hi, rfl, hx⟩ ⟨j, hj, rfl, hy⟩
      exact hdisj i hi j hj (fun e => htu (e ▸ rfl)) _ hx hy
    · rintro t l ⟨i, hi, rfl, hx⟩
      exact hfree i hi l hx
    · rintro t l ⟨i, hi, rfl, hx⟩
      exact hacc i hi l hx
  have hr : ∀ (L : List ι) d, (∀ i ∈ L, i ∈ K) → ∀ d', runItems step L d = .ok d' →
      runProgs ((L.map tid).map g.start) (g.mem (bufs d)) = .ok (g.mem (bufs d')) := by
    intro L
    induction L with
    | nil => intro d _ d' h; cases h; rfl
    | cons i L ih =>
      intro d hL d' h
      simp only [runItems] at h
      obtain ⟨d1, h1, h⟩ := M.bind_eq_ok.1 h
      simp only [List.map_cons, runProgs, hrun i (hL i List.mem_cons_self) d d1 h1, M.bind_ok]
      exact ih d1 (fun j hj => hL j (List.mem_cons_of_mem _ hj)) d' h
  exact g.works_of_owned (bufs s) ho (K.map tid) ((List.nodup_map_iff_inj_on hK).2 hinj)
    (fun t ht => hcov t fun i hi e => ht (List.mem_map.2 ⟨i, hi, e⟩))
    (fun t ht => by
      obtain ⟨i, hi, rfl⟩ := List.mem_map.1 ht
      exact (hfoot i hi).mono (fun l hl => ⟨i, hi, rfl, hl⟩))
    (hr K s (fun i h => h) s' h)

/-- One thread per item; thread `i` owns the elements `own i` of the output. `acc`: elements that are only accessed by atomic additions. -/
theorem Launch.gives_of_items {ι : Type} (g : Launch α) (srcs : List (Buf α)) (dst : Buf α) (K : List ι) (hK : K.Nodup) (tid : ι → Tid)
    (hinj : ∀ i ∈ K, ∀ j ∈ K, tid i = tid j → i = j) (hcov : ∀ t, (∀ i ∈ K, tid i ≠ t) → g.start t = .done) (own : ι → Nat → Prop) (acc : Nat → Prop)
    (hdisj : ∀ i ∈ K, ∀ j ∈ K, i ≠ j → ∀ x, own i x → ¬ own j x) (hacc : ∀ i ∈ K, ∀ x, own i x → ¬ acc x)
    (hcomm : ∀ x, acc x → ∀ a b c : α, a + b + c = a + c + b)
    (hfoot : ∀ i ∈ K, (g.start (tid i)).Foot (g.mem (taskBufs dst srcs)) (fun l => l.1 = .glob 0 ∧ own i l.2) (fun l => ∃ b, l.1 = .glob (b+1)) (fun l => l.1 = .glob 0 ∧ acc l.2))
    (step : ι → Buf α → M (Buf α))
    (hrun : ∀ i ∈ K, ∀ d d', step i d = .ok d' → (g.start (tid i)).run (g.mem (taskBufs d srcs)) = .ok (g.mem (taskBufs d' srcs)))
    {dst' : Buf α} (h : runItems step K dst = .ok dst') : g.Gives srcs dst dst' := by
  refine Launch.works_of_items g (fun d => taskBufs d srcs) K hK tid hinj hcov (fun i l => l.1 = .glob 0 ∧ own i l.2) (fun l => ∃ b, l.1 = .glob (b+1))
    (fun l => l.1 = .glob 0 ∧ acc l.2) ?_ ?_ ?_ ?_ ?_ dst hfoot step hrun h
  · rintro i hi j hj hij x ⟨_, hx⟩ ⟨_, hy⟩
    exact hdisj i hi j hj hij _ hx hy
  · rintro i hi l ⟨hl, hx⟩ ⟨b, hb⟩
    rw [hl] at hb; simp at hb
  · rintro i hi l ⟨hl, hx⟩ ⟨_, hb⟩
    exact hacc i hi _ hx hb
  · rintro l ⟨hl, _⟩ ⟨b, hb⟩
    rw [hl] at hb; simp at hb
  · rintro l ⟨_, hl⟩
    exact hcomm _ hl

/-! ### Footprints of kernels -/

section
variable {m0 : Mem α} {own free acc : Loc → Prop}

theorem foot_ld_own {b i : Nat} {k : α → Prog α} (h : own (.glob b, i)) (hk : ∀ v, (k v).Foot m0 own free acc) : (ld b i k : Prog α).Foot m0 own free acc := Or.inl ⟨h, hk⟩
theorem foot_ld_free {b i : Nat} {k : α → Prog α} (h : free (.glob b, i)) (hk : ∀ v, m0.rd (.glob b, i) = .ok v → (k v).Foot m0 own free acc) : (ld b i k : Prog α).Foot m0 own free acc :=
  Or.inr ⟨h, hk⟩
theorem foot_st {b i : Nat} {v : α} {k : Unit → Prog α} (h : own (.glob b, i)) (hk : (k ()).Foot m0 own free acc) : (st b i v k : Prog α).Foot m0 own free acc := ⟨h, hk⟩
end

/-! ### Element-wise launches -/

theorem uint32_eq {n : Nat} (h : n < 2^32) : uint32 n = n := by
  unfold uint32
  omega

theorem gidInt_eq {a b c : Nat} (h : a + b * c < 2^31) : gidInt a b c = (a + b * c : Nat) := by
  unfold gidInt
  have e : ((a : Int) + b * c) = ((a + b * c : Nat) : Int) := by push_cast; rfl
  rw [e, uint32_eq (by omega)]
  unfold int32
  generalize a + b * c = x at *
  omega

theorem gidIndex_eq {a b c : Nat} (h : a + b * c < 2^32) : gidIndex a b c = a + b * c := by
  unfold gidIndex
  have e : ((a : Int) + b * c) = ((a + b * c : Nat) : Int) := by push_cast; rfl
  rw [e, uint32_eq h]

/-- The thread of element `i`. -/
def ewTid (bs i : Nat) : Tid := ⟨⟨i / bs, 0, 0⟩, ⟨i % bs, 0, 0⟩⟩

theorem ewLaunch_valid {bs n : Nat} (hbs : 0 < bs) (hbs' : bs ≤ 1024) (hn : 0 < n) (hn' : n ≤ 2^31) (hb2 : 2 ≤ bs) (body : Nat → PM α Unit) : (ewLaunch bs n body).Valid := by
  have h1 : (n + bs - 1) / bs < 2^31 := by
    rw [Nat.div_lt_iff_lt_mul hbs]
    omega
  have h2 : 1 ≤ (n + bs - 1) / bs := by
    rw [Nat.le_div_iff_mul_le hbs]; omega
  simp only [Launch.Valid, ewLaunch, uint32_eq (show (n + bs - 1) / bs < 2^32 by omega)]
  omega

theorem ew_bound {bs n x y : Nat} (hdvd : bs ∣ 2^31) (hn' : n ≤ 2^31) (hx : x < bs) (hy : y < (n + bs - 1) / bs) : x + y * bs < 2^31 := by
  obtain ⟨c, hc⟩ := hdvd
  have hbs : 0 < bs := by omega
  have h1 : (n + bs - 1) / bs ≤ c := by
    rw [Nat.div_le_iff_le_mul_add_pred hbs]
    omega
  have : y + 1 ≤ c := by omega
  nlinarith

theorem ewLaunch_start {bs n : Nat} (hb2 : 2 ≤ bs) (hbs' : bs ≤ 1024) (hdvd : bs ∣ 2^31) (hn' : n ≤ 2^31) (body : Nat → PM α Unit) {i : Nat} (hi : i < n) :
    (ewLaunch bs n body).start (ewTid bs i) = (body i).prog := by
  have hbs : 0 < bs := by omega
  have hblk : i / bs < (n + bs - 1) / bs := by
    rw [Nat.div_lt_iff_lt_mul hbs]
    have := Nat.lt_mul_div_succ (n + bs - 1) hbs
    have e : (n + bs - 1) / bs * bs = bs * ((n + bs - 1) / bs) := Nat.mul_comm _ _
    rw [Nat.mul_add] at this
    omega
  have hu : uint32 (((n + bs - 1) / bs : Nat) : Int) = (n + bs - 1) / bs := uint32_eq (by
    have := Nat.div_le_self (n + bs - 1) bs
    omega)
  have hhas : (ewLaunch bs n body).Has (ewTid bs i) := by
    simp only [Launch.Has, ewLaunch, ewTid, hu]
    refine ⟨hblk, by omega, by omega, Nat.mod_lt _ hbs, by omega, by omega⟩
  unfold Launch.start
  rw [if_pos ⟨ewLaunch_valid hbs hbs' (by omega) hn' hb2 body, hhas⟩]
  have hb := ew_bound hdvd hn' (Nat.mod_lt i hbs) hblk
  have he : i % bs + i / bs * bs = i := by rw [Nat.mul_comm]; exact Nat.mod_add_div i bs
  simp only [ewLaunch, ewTid, gidInt_eq hb, he]
  rw [if_pos (by omega), if_neg (by omega)]
  simp

theorem ewLaunch_cover {bs n : Nat} (hb2 : 2 ≤ bs) (hdvd : bs ∣ 2^31) (hn' : n ≤ 2^31) (body : Nat → PM α Unit) (t : Tid) (ht : ∀ i ∈ List.range n, ewTid bs i ≠ t) :
    (ewLaunch bs n body).start t = .done := by
  have hbs : 0 < bs := by omega
  unfold Launch.start
  split
  swap
  · rfl
  next h =>
  obtain ⟨hv, hh⟩ := h
  have hu : uint32 (((n + bs - 1) / bs : Nat) : Int) = (n + bs - 1) / bs := uint32_eq (by
    have := Nat.div_le_self (n + bs - 1) bs
    have := Nat.le_of_dvd (by decide) hdvd
    omega)
  simp only [Launch.Has, ewLaunch, hu] at hh
  obtain ⟨h1, h2, h3, h4, h5, h6⟩ := hh
  have hb := ew_bound hdvd hn' h4 h1
  simp only [ewLaunch, gidInt_eq hb]
  rw [if_neg]
  intro hc
  have hc : t.thr.x + t.blk.x * bs < n := by omega
  refine ht (t.thr.x + t.blk.x * bs) (List.mem_range.2 hc) ?_
  obtain ⟨⟨bx, bY, bz⟩, ⟨tx, ty, tz⟩⟩ := t
  simp only at h1 h2 h3 h4 h5 h6
  have e1 : (tx + bx * bs) / bs = bx := by rw [Nat.add_mul_div_right _ _ hbs, Nat.div_eq_of_lt h4, Nat.zero_add]
  have e2 : (tx + bx * bs) % bs = tx := by rw [Nat.add_mul_mod_self_right, Nat.mod_eq_of_lt h4]
  obtain rfl : bY = 0 := by omega
  obtain rfl : bz = 0 := by omega
  obtain rfl : ty = 0 := by omega
  obtain rfl : tz = 0 := by omega
  simp only [ewTid, e1, e2]

theorem ewTid_inj {bs i j : Nat} (h : ewTid bs i = ewTid bs j) : i = j := by
  simp only [ewTid, Tid.mk.injEq, Dim3.mk.injEq] at h
  rw [← Nat.div_add_mod i bs, ← Nat.div_add_mod j bs, h.1.1, h.2.1]

/-- Element-wise kernels. -/
theorem ewLaunch_gives {bs n : Nat} (hb2 : 2 ≤ bs) (hbs' : bs ≤ 1024) (hdvd : bs ∣ 2^31) (hn' : n ≤ 2^31) (body : Nat → PM α Unit) (srcs : List (Buf α)) (dst : Buf α)
    (own : Nat → Nat → Prop) (acc : Nat → Prop) (hdisj : ∀ i j x, i < n → j < n → i ≠ j → own i x → ¬ own j x) (hacc : ∀ i x, own i x → ¬ acc x)
    (hcomm : ∀ x, acc x → ∀ a b c : α, a + b + c = a + c + b) (step : Nat → Buf α → M (Buf α))
    (hfoot : ∀ i < n, ((body i).prog).Foot ((ewLaunch bs n body).mem (taskBufs dst srcs)) (fun l => l.1 = .glob 0 ∧ own i l.2) (fun l => ∃ b, l.1 = .glob (b+1)) (fun l => l.1 = .glob 0 ∧ acc l.2))
    (hrun : ∀ i < n, ∀ d d', step i d = .ok d' → ((body i).prog).run ((ewLaunch bs n body).mem (taskBufs d srcs)) = .ok ((ewLaunch bs n body).mem (taskBufs d' srcs)))
    {dst' : Buf α} (h : forN n step dst = .ok dst') : (ewLaunch bs n body).Gives srcs dst dst' := by
  rw [forN_items] at h
  have hs : ∀ i ∈ List.range n, (ewLaunch bs n body).start (ewTid bs i) = (body i).prog := fun i hi => ewLaunch_start hb2 hbs' hdvd hn' body (List.mem_range.1 hi)
  refine Launch.gives_of_items _ srcs dst (List.range n) List.nodup_range (ewTid bs) (fun i _ j _ e => ewTid_inj e) (ewLaunch_cover hb2 hdvd hn' body) own acc
    (fun i hi j hj hij x => hdisj i j x (List.mem_range.1 hi) (List.mem_range.1 hj) hij) (fun i _ x => hacc i x) hcomm ?_ step ?_ h
  · intro i hi
    rw [hs i hi]
    exact hfoot i (List.mem_range.1 hi)
  · intro i hi
    rw [hs i hi]
    exact hrun i (List.mem_range.1 hi)

/-- A write of a buffer of the task. -/
theorem mem_wr_glob (g : Launch α) (bufs : Nat → Buf α) (b i : Nat) (v : α) :
    (g.mem bufs).wr (.glob b, i) v = ((bufs b).wr i v).bind fun x => .ok (g.mem (Function.update bufs b x)) := by
  change (((bufs b).wr i v).bind fun x => .ok (Function.update (g.mem bufs) (Space.glob b) x)) = _
  congr 1
  funext d'
  congr 1
  funext s
  match s with
  | .glob c =>
    by_cases h : c = b
    · subst h; simp [Launch.mem]
    · simp [Launch.mem, h]
  | .shared x => simp [Launch.mem]

/-- Element-wise kernels with several outputs. -/
theorem ewLaunch_works {σ : Type} {bs n : Nat} (hb2 : 2 ≤ bs) (hbs' : bs ≤ 1024) (hdvd : bs ∣ 2^31) (hn' : n ≤ 2^31) (body : Nat → PM α Unit) (bufs : σ → Nat → Buf α) (s : σ)
    (own : Nat → Loc → Prop) (free : Loc → Prop) (hdisj : ∀ i j x, i < n → j < n → i ≠ j → own i x → ¬ own j x) (hfree : ∀ i x, own i x → ¬ free x)
    (step : Nat → σ → M σ)
    (hfoot : ∀ m0, ∀ i < n, ((body i).prog).Foot m0 (own i) free (fun _ => False))
    (hrun : ∀ g : Launch α, ∀ i < n, ∀ d d', step i d = .ok d' → ((body i).prog).run (g.mem (bufs d)) = .ok (g.mem (bufs d')))
    {s' : σ} (h : forN n step s = .ok s') : (ewLaunch bs n body).Works (bufs s) fun b => b = bufs s' := by
  rw [forN_items] at h
  have hs : ∀ i ∈ List.range n, (ewLaunch bs n body).start (ewTid bs i) = (body i).prog := fun i hi => ewLaunch_start hb2 hbs' hdvd hn' body (List.mem_range.1 hi)
  refine Launch.works_of_items _ bufs (List.range n) List.nodup_range (ewTid bs) (fun i _ j _ e => ewTid_inj e) (ewLaunch_cover hb2 hdvd hn' body) own free (fun _ => False)
    (fun i hi j hj hij x => hdisj i j x (List.mem_range.1 hi) (List.mem_range.1 hj) hij) (fun i _ => hfree i) (fun _ _ _ _ h => h) (fun _ h => h.elim) (fun _ h => h.elim) s ?_ step ?_ h
  · intro i hi
    rw [hs i hi]
    exact hfoot _ i (List.mem_range.1 hi)
  · intro i hi
    rw [hs i hi]
    exact hrun _ i (List.mem_range.1 hi)

/-! ### Three-dimensional launches -/

theorem int32_eq {n : Nat} (h : n < 2^31) : int32 n = n := by
  unfold int32
  omega

/-- The number of threads in a direction. -/
def dimOf (n t : Nat) : Nat := min n t

theorem dimOf_eq {n t : Nat} (h : n < 2^31) : uint32 (min (int32 n) t) = dimOf n t := by
  rw [int32_eq h]
  have : (min (n : Int) (t : Int)) = ((min n t : Nat) : Int) := by simp
  rw [this, uint32_eq (by omega)]
  rfl

/-- Configurations of `grid3Launch` within the limits. -/
structure Grid3Ok (m n k tx ty tz : Nat) : Prop where
  hm : 0 < m ∧ m < 2^31
  hn : 0 < n ∧ n < 2^31
  hk : 0 < k ∧ k < 2^31
  threads : 0 < tx ∧ 0 < ty ∧ 0 < tz ∧ tz ≤ 64 ∧ tx * ty * tz ≤ 1024
  y : n ≤ 65535 * ty
  z : k ≤ 65535 * tz

/-- The launch of `grid3Launch`. -/
def grid3 (m n k tx ty tz : Nat) (body : Nat → Nat → Nat → PM α Unit) : Launch α where
  grid := ⟨(m + dimOf m tx - 1) / dimOf m tx, (n + dimOf n ty - 1) / dimOf n ty, (k + dimOf k tz - 1) / dimOf k tz⟩
  threads := ⟨dimOf m tx, dimOf n ty, dimOf k tz⟩
  shared := 0
  body t :=
    let i0 := gidIndex t.thr.x t.blk.x (dimOf m tx)
    let i1 := gidIndex t.thr.y t.blk.y (dimOf n ty)
    let i2 := gidIndex t.thr.z t.blk.z (dimOf k tz)
    if i0 < m ∧ i1 < n ∧ i2 < k then (body i0 i1 i2).prog else .done

theorem dimOf_pos {n t : Nat} (h : 0 < n) (h' : 0 < t) : 0 < dimOf n t := by unfold dimOf; omega

theorem blocks_le (n d : Nat) (h : 0 < n) (hd : 0 < d) : (n + d - 1) / d ≤ n := by
  rw [Nat.div_le_iff_le_mul_add_pred hd]
  have := Nat.mul_le_mul_right n hd
  omega

theorem grid3Launch_eq {m n k tx ty tz : Nat} (h : Grid3Ok m n k tx ty tz) (body : Nat → Nat → Nat → PM α Unit) :
    grid3Launch m n k tx ty tz body = .ok (grid3 m n k tx ty tz body) := by
  have h1 := dimOf_pos h.hm.1 h.threads.1
  have h2 := dimOf_pos h.hn.1 h.threads.2.1
  have h3 := dimOf_pos h.hk.1 h.threads.2.2.1
  unfold grid3Launch
  simp only [dimOf_eq h.hm.2, dimOf_eq h.hn.2, dimOf_eq h.hk.2]
  rw [if_neg (by omega)]
  have b1 := blocks_le m _ h.hm.1 h1
  have b2 := blocks_le n _ h.hn.1 h2
  have b3 := blocks_le k _ h.hk.1 h3
  have := h.hm.2
  have := h.hn.2
  have := h.hk.2
  rw [uint32_eq (by omega), uint32_eq (by omega), uint32_eq (by omega)]
  rfl

theorem blocks_lt16 {n t : Nat} (h0 : 0 < n) (ht : 0 < t) (h : n ≤ 65535 * t) : (n + dimOf n t - 1) / dimOf n t < 2^16 := by
  have hd := dimOf_pos h0 ht
  rw [Nat.div_lt_iff_lt_mul hd]
  unfold dimOf at *
  rcases Nat.le_total n t with h1 | h1
  · rw [Nat.min_eq_left h1] at *; omega
  · rw [Nat.min_eq_right h1] at *; omega

theorem blocks_pos {n d : Nat} (h0 : 0 < n) (hd : 0 < d) : 1 ≤ (n + d - 1) / d := by
  rw [Nat.le_div_iff_mul_le hd]; omega

theorem grid3_valid {m n k tx ty tz : Nat} (h : Grid3Ok m n k tx ty tz) (body : Nat → Nat → Nat → PM α Unit) : (grid3 m n k tx ty tz body).Valid := by
  have h1 := dimOf_pos h.hm.1 h.threads.1
  have h2 := dimOf_pos h.hn.1 h.threads.2.1
  have h3 := dimOf_pos h.hk.1 h.threads.2.2.1
  have b1 := blocks_le m _ h.hm.1 h1
  have := h.hm.2
  obtain ⟨t1, t2, t3, t4, t5⟩ := h.threads
  have c1 : dimOf m tx ≤ tx := Nat.min_le_right _ _
  have c2 : dimOf n ty ≤ ty := Nat.min_le_right _ _
  have c3 : dimOf k tz ≤ tz := Nat.min_le_right _ _
  have p : dimOf m tx * dimOf n ty * dimOf k tz ≤ tx * ty * tz := Nat.mul_le_mul (Nat.mul_le_mul c1 c2) c3
  have p1 : dimOf m tx ≤ dimOf m tx * dimOf n ty * dimOf k tz := by
    rw [Nat.mul_assoc]; exact Nat.le_mul_of_pos_right _ (Nat.mul_pos h2 h3)
  have p2 : dimOf n ty ≤ dimOf m tx * dimOf n ty * dimOf k tz := by
    rw [Nat.mul_comm (dimOf m tx), Nat.mul_assoc]; exact Nat.le_mul_of_pos_right _ (Nat.mul_pos h1 h3)
  refine ⟨blocks_pos h.hm.1 h1, by change (m + dimOf m tx - 1) / dimOf m tx < 2^31; omega, blocks_pos h.hn.1 h2, blocks_lt16 h.hn.1 t2 h.y, blocks_pos h.hk.1 h3, blocks_lt16 h.hk.1 t3 h.z, ?_⟩
  change 1 ≤ dimOf m tx ∧ dimOf m tx ≤ 1024 ∧ 1 ≤ dimOf n ty ∧ dimOf n ty ≤ 1024 ∧ 1 ≤ dimOf k tz ∧ dimOf k tz ≤ 64 ∧ dimOf m tx * dimOf n ty * dimOf k tz ≤ 1024
  omega

/-- The thread of the item `(i0, i1, i2)`. -/
def tid3 (dx dy dz : Nat) (p : Nat × Nat × Nat) : Tid := ⟨⟨p.1 / dx, p.2.1 / dy, p.2.2 / dz⟩, ⟨p.1 % dx, p.2.1 % dy, p.2.2 % dz⟩⟩

theorem tid3_inj {dx dy dz : Nat} {p q : Nat × Nat × Nat} (h : tid3 dx dy dz p = tid3 dx dy dz q) : p = q := by
  obtain ⟨a, b, c⟩ := p
  obtain ⟨a', b', c'⟩ := q
  simp only [tid3, Tid.mk.injEq, Dim3.mk.injEq] at h
  obtain ⟨⟨h1, h2, h3⟩, h4, h5, h6⟩ := h
  have e1 : a = a' := by rw [← Nat.div_add_mod a dx, ← Nat.div_add_mod a' dx, h1, h4]
  have e2 : b = b' := by rw [← Nat.div_add_mod b dy, ← Nat.div_add_mod b' dy, h2, h5]
  have e3 : c = c' := by rw [← Nat.div_add_mod c dz, ← Nat.div_add_mod c' dz, h3, h6]
  subst e1 e2 e3; rfl

theorem blk_lt {i n d : Nat} (hd : 0 < d) (hi : i < n) : i / d < (n + d - 1) / d := by
  rw [Nat.div_lt_iff_lt_mul hd]
  have := Nat.lt_mul_div_succ (n + d - 1) hd
  have e : (n + d - 1) / d * d = d * ((n + d - 1) / d) := Nat.mul_comm _ _
  rw [Nat.mul_add] at this
  omega

theorem gid_lt {x y n d : Nat} (hn : n < 2^31) (hd : 0 < d) (hdn : d ≤ n) (hx : x < d) (hy : y < (n + d - 1) / d) : x + y * d < 2^32 := by
  have : y + 1 ≤ (n + d - 1) / d := hy
  have h1 := Nat.div_mul_le_self (n + d - 1) d
  have h2 := Nat.mul_le_mul_right d this
  rw [Nat.add_mul] at h2
  omega

theorem gidIndex_tid {i d : Nat} (h : i < 2^32) : gidIndex (i % d) (i / d) d = i := by
  have he : i % d + i / d * d = i := by rw [Nat.mul_comm]; exact Nat.mod_add_div i d
  rw [gidIndex_eq (by omega), he]

theorem grid3_start {m n k tx ty tz : Nat} (h : Grid3Ok m n k tx ty tz) (body : Nat → Nat → Nat → PM α Unit) {i0 i1 i2 : Nat} (h0 : i0 < m) (h1 : i1 < n) (h2 : i2 < k) :
    (grid3 m n k tx ty tz body).start (tid3 (dimOf m tx) (dimOf n ty) (dimOf k tz) (i0, i1, i2)) = (body i0 i1 i2).prog := by
  have d1 := dimOf_pos h.hm.1 h.threads.1
  have d2 := dimOf_pos h.hn.1 h.threads.2.1
  have d3 := dimOf_pos h.hk.1 h.threads.2.2.1
  have := h.hm.2
  have := h.hn.2
  have := h.hk.2
  have hhas : (grid3 m n k tx ty tz body).Has (tid3 (dimOf m tx) (dimOf n ty) (dimOf k tz) (i0, i1, i2)) :=
    ⟨blk_lt d1 h0, blk_lt d2 h1, blk_lt d3 h2, Nat.mod_lt _ d1, Nat.mod_lt _ d2, Nat.mod_lt _ d3⟩
  unfold Launch.start
  rw [if_pos ⟨grid3_valid h body, hhas⟩]
  · simp only [grid3, tid3, gidIndex_tid (show i0 < 2^32 by omega), gidIndex_tid (show i1 < 2^32 by omega), gidIndex_tid (show i2 < 2^32 by omega)]
    rw [if_pos ⟨h0, h1, h2⟩]

theorem tid_eta {x y d : Nat} (hx : x < d) : (x + y * d) / d = y ∧ (x + y * d) % d = x := by
  have hd : 0 < d := by omega
  exact ⟨by rw [Nat.add_mul_div_right _ _ hd, Nat.div_eq_of_lt hx, Nat.zero_add], by rw [Nat.add_mul_mod_self_right, Nat.mod_eq_of_lt hx]⟩

theorem grid3_cover {m n k tx ty tz : Nat} (h : Grid3Ok m n k tx ty tz) (body : Nat → Nat → Nat → PM α Unit) (t : Tid)
    (ht : ∀ i0 i1 i2, i0 < m → i1 < n → i2 < k → tid3 (dimOf m tx) (dimOf n ty) (dimOf k tz) (i0, i1, i2) ≠ t) : (grid3 m n k tx ty tz body).start t = .done := by
  have d1 := dimOf_pos h.hm.1 h.threads.1
  have d2 := dimOf_pos h.hn.1 h.threads.2.1
  have d3 := dimOf_pos h.hk.1 h.threads.2.2.1
  unfold Launch.start
  split
  swap
  · rfl
  next hv =>
  obtain ⟨_, h1, h2, h3, h4, h5, h6⟩ := hv
  simp only [grid3] at h1 h2 h3 h4 h5 h6
  have g1 := gid_lt h.hm.2 d1 (Nat.min_le_left _ _) h4 h1
  have g2 := gid_lt h.hn.2 d2 (Nat.min_le_left _ _) h5 h2
  have g3 := gid_lt h.hk.2 d3 (Nat.min_le_left _ _) h6 h3
  simp only [grid3, gidIndex_eq g1, gidIndex_eq g2, gidIndex_eq g3]
  rw [if_neg]
  rintro ⟨c1, c2, c3⟩
  refine ht _ _ _ c1 c2 c3 ?_
  obtain ⟨⟨bx, bY, bz⟩, ⟨x, y, z⟩⟩ := t
  simp only [tid3, (tid_eta h4).1, (tid_eta h4).2, (tid_eta h5).1, (tid_eta h5).2, (tid_eta h6).1, (tid_eta h6).2]

/-- Kernels with a three-dimensional grid of threads. `perm` gives the indices of the thread of an item of the loop of the CPU kernel. -/
theorem grid3_gives {m n k tx ty tz : Nat} (hg : Grid3Ok m n k tx ty tz) (body : Nat → Nat → Nat → PM α Unit) (srcs : List (Buf α)) (dst : Buf α)
    (K : List (Nat × Nat × Nat)) (hK : K.Nodup) (perm : Nat × Nat × Nat → Nat × Nat × Nat) (hperm : ∀ p ∈ K, ∀ q ∈ K, perm p = perm q → p = q)
    (hin : ∀ p ∈ K, (perm p).1 < m ∧ (perm p).2.1 < n ∧ (perm p).2.2 < k) (hall : ∀ i0 i1 i2, i0 < m → i1 < n → i2 < k → ∃ p ∈ K, perm p = (i0, i1, i2))
    (own : Nat × Nat × Nat → Nat → Prop) (hdisj : ∀ p ∈ K, ∀ q ∈ K, p ≠ q → ∀ x, own p x → ¬ own q x) (step : Nat × Nat × Nat → Buf α → M (Buf α))
    (hfoot : ∀ g : Launch α, ∀ p ∈ K, ((body (perm p).1 (perm p).2.1 (perm p).2.2).prog).Foot (g.mem (taskBufs dst srcs)) (fun l => l.1 = .glob 0 ∧ own p l.2) (fun l => ∃ b, l.1 = .glob (b+1)) (fun l => l.1 = .glob 0 ∧ False))
    (hrun : ∀ g : Launch α, ∀ p ∈ K, ∀ d d', step p d = .ok d' → ((body (perm p).1 (perm p).2.1 (perm p).2.2).prog).run (g.mem (taskBufs d srcs)) = .ok (g.mem (taskBufs d' srcs)))
    {dst' : Buf α} (h : runItems step K dst = .ok dst') : ∃ g, grid3Launch m n k tx ty tz body = .ok g ∧ g.Gives srcs dst dst' := by
  refine ⟨_, grid3Launch_eq hg body, ?_⟩
  have hs : ∀ p ∈ K, (grid3 m n k tx ty tz body).start (tid3 (dimOf m tx) (dimOf n ty) (dimOf k tz) (perm p)) = (body (perm p).1 (perm p).2.1 (perm p).2.2).prog :=
    fun p hp => grid3_start hg body (hin p hp).1 (hin p hp).2.1 (hin p hp).2.2
  refine Launch.gives_of_items _ srcs dst K hK (fun p => tid3 (dimOf m tx) (dimOf n ty) (dimOf k tz) (perm p)) (fun p hp q hq e => hperm p hp q hq (tid3_inj e)) ?_ own (fun _ => False)
    hdisj (fun _ _ _ _ h => h) (fun _ h => h.elim) ?_ step ?_ h
  · intro t ht
    refine grid3_cover hg body t fun i0 i1 i2 h0 h1 h2 e => ?_
    obtain ⟨p, hp, e'⟩ := hall i0 i1 i2 h0 h1 h2
    exact ht p hp (by simp only [e']; exact e)
  · intro p hp
    rw [hs p hp]
    exact hfoot _ p hp
  · intro p hp
    rw [hs p hp]
    exact hrun _ p hp

end NNTile
