import Verif.Lib.CudaWorks
import Verif.Lib.CudaStride
import Verif.Model.CudaBarrier
import Mathlib.Data.List.Perm.Basic
import Mathlib.Algebra.BigOperators.Group.List.Basic
/-! Kernels with barriers: phases, reading of sources, lists of threads, reduction over a block. -/
namespace NNTile
variable {α : Type} [FP α]

/-! ### Phases -/

theorem wpSeq_intro {base : Loc → α} {Q : Mem α → (Tid → Prog α) → Prop} (R : Tid → Prog α) (I : List Tid → Mem α → Prop) (P0 : Tid → Prog α) :
    ∀ (L K : List Tid) (P : Tid → Prog α) (m : Mem α), L.Nodup → (∀ t ∈ L, t ∉ K) → (∀ t ∈ L, P t = P0 t) → (∀ t ∈ K, P t = R t) → I K m →
      (∀ K t m', t ∈ L → t ∉ K → I K m' → (P0 t).wp base (fun m'' p => p = R t ∧ I (t :: K) m'') m') →
      (∀ m' P', (∀ t, t ∈ L ∨ t ∈ K → P' t = R t) → I (L.reverse ++ K) m' → Q m' P') → wpSeq base Q L P m := by
  intro L
  induction L with
  | nil => intro K P m _ _ _ hP h0 _ hQ; exact hQ m P (fun t ht => hP t (ht.resolve_left (by simp))) (by simpa using h0)
  | cons t L ih =>
    intro K P m hn hd hP hR h0 hs hQ
    have hn' := List.nodup_cons.1 hn
    simp only [wpSeq]
    rw [hP t (by simp)]
    refine Prog.wp_mono ?_ _ _ (hs K t m (by simp) (hd t (by simp)) h0)
    rintro m1 p ⟨rfl, h1⟩
    refine ih (t :: K) _ m1 hn'.2 (fun u hu => ?_) (fun u hu => ?_) (fun u hu => ?_) h1 (fun K u m' hu => hs K u m' (by simp [hu])) (fun m' P' hP' hI => hQ m' P' (fun u hu => ?_) ?_)
    · have : u ≠ t := by rintro rfl; exact hn'.1 hu
      simp [this, hd u (by simp [hu])]
    · rw [Function.update_of_ne (by rintro rfl; exact hn'.1 hu)]
      exact hP u (by simp [hu])
    · by_cases e : u = t
      · subst e; simp
      · rw [Function.update_of_ne e]
        exact hR u ((List.mem_cons.1 hu).resolve_left e)
    · refine hP' u ?_
      simp only [List.mem_cons] at hu ⊢
      tauto
    · simpa using hI

/-- A phase whose residual programs are known. -/
theorem BlockOk.phase {L : List Tid} (hL : L.Nodup) {W G : Loc → Prop} {Post : Mem α → Prop} {n : Nat} {m : Mem α} {P : Tid → Prog α} (c : Cls α) (hc : c.Ok) (hi : c.In W G)
    (hf : ∀ t ∈ L, (P t).FootB c m t) (hr : ∀ l, c.raised l → m.rd l = .ok (c.base l)) (R : Tid → Prog α) (I : List Tid → Mem α → Prop) (h0 : I [] m)
    (hs : ∀ K t m', t ∈ L → t ∉ K → I K m' → (P t).wp c.base (fun m'' p => p = R t ∧ I (t :: K) m'') m')
    (hn : ∀ K m', K.Perm L → I K m' → BlockOk L W G Post n m' fun t => (R t).resume) : BlockOk L W G Post (n+1) m P := by
  refine ⟨c, m, hc, hi, hf, fun _ _ => rfl, fun l hl => ⟨_, hr l hl, Or.inl rfl⟩, ?_⟩
  refine wpSeq_intro R I P L [] P m hL (by simp) (fun _ _ => rfl) (by simp) h0 hs fun m' P' hP' hI => ?_
  exact (hn (L.reverse) m' L.reverse_perm (by simpa using hI)).congr fun t ht => by rw [hP' t (Or.inl ht)]

/-! ### Reading the sources -/

/-- An address in a source buffer. -/
def SrcLoc (l : Loc) : Prop := ∃ j, l.1 = .glob (j+1)

/-- `f` reads only sources, and returns `x` in memory `m`. -/
structure PM.Reads {β : Type} (f : PM α β) (m : Mem α) (x : β) : Prop where
  wp : ∀ (base : Loc → α) (Q : Mem α → Prog α → Prop) (k : β → Prog α) (m' : Mem α), (∀ l, SrcLoc l → m'.rd l = m.rd l) → (k x).wp base Q m' → (f k).wp base Q m'
  foot : ∀ (c : Cls α) (t : Tid) (k : β → Prog α), (∀ l, SrcLoc l → c.free l) → (k x).FootB c m t → (f k).FootB c m t

theorem reads_pure {β : Type} (m : Mem α) (x : β) : (pure x : PM α β).Reads m x := ⟨fun _ _ _ _ _ h => h, fun _ _ _ _ h => h⟩

theorem reads_bind {β γ : Type} {f : PM α β} {g : β → PM α γ} {m : Mem α} {x : β} {y : γ} (hf : f.Reads m x) (hg : (g x).Reads m y) : (f >>= g).Reads m y :=
  ⟨fun base Q k m' hm h => hf.wp base Q (fun b => g b k) m' hm (hg.wp base Q k m' hm h), fun c t k hc h => hf.foot c t (fun b => g b k) hc (hg.foot c t k hc h)⟩

theorem reads_ld {m : Mem α} {b i : Nat} {x : α} (h : m.rd (.glob (b+1), i) = .ok x) : (ld (b+1) i : PM α α).Reads m x :=
  ⟨fun base Q k m' hm hk => ⟨x, by rw [hm _ ⟨b, rfl⟩, h], hk⟩, fun c t k hc hk => Or.inr ⟨hc _ ⟨b, rfl⟩, fun v hv => by rw [h] at hv; cases hv; exact hk⟩⟩

/-- `n` steps of a loop without effects. -/
def foldP {σ : Type} : Nat → (Nat → σ → σ) → σ → σ
  | 0, _, s => s
  | n+1, f, s => f n (foldP n f s)

theorem reads_forP {σ : Type} {f : Nat → σ → PM α σ} {g : Nat → σ → σ} {m : Mem α} (n : Nat) (h : ∀ i, i < n → ∀ s, (f i s).Reads m (g i s)) (s : σ) :
    (forP n f s).Reads m (foldP n g s) := by
  induction n with
  | zero => exact reads_pure m s
  | succ n ih =>
    have h1 := ih fun i hi => h i (by omega)
    have h2 := h n (by omega) (foldP n g s)
    exact ⟨fun base Q k m' hm hk => h1.wp base Q _ m' hm (h2.wp base Q k m' hm hk), fun c t k hc hk => h1.foot c t _ hc (h2.foot c t k hc hk)⟩

/-! ### Lists of threads -/

def Dim3.box (d : Dim3) : List Dim3 := (List.range d.x).flatMap fun x => (List.range d.y).flatMap fun y => (List.range d.z).map fun z => ⟨x, y, z⟩

theorem Dim3.mem_box {d e : Dim3} : e ∈ d.box ↔ e.x < d.x ∧ e.y < d.y ∧ e.z < d.z := by
  obtain ⟨x, y, z⟩ := e
  simp only [box, List.mem_flatMap, List.mem_range, List.mem_map, Dim3.mk.injEq]
  constructor
  · rintro ⟨_, h1, _, h2, _, h3, rfl, rfl, rfl⟩; exact ⟨h1, h2, h3⟩
  · rintro ⟨h1, h2, h3⟩; exact ⟨x, h1, y, h2, z, h3, rfl, rfl, rfl⟩

theorem Dim3.box_nodup (d : Dim3) : d.box.Nodup := by
  unfold box
  rw [List.nodup_flatMap]
  refine ⟨fun x _ => ?_, ?_⟩
  · rw [List.nodup_flatMap]
    refine ⟨fun y _ => List.nodup_range.map fun a b h => by cases h; rfl, ?_⟩
    refine List.Pairwise.imp (fun {a b} h => ?_) (List.nodup_range (n := d.y))
    intro u hu hv
    simp only [List.mem_map] at hu hv
    obtain ⟨_, _, rfl⟩ := hu
    obtain ⟨_, _, hv⟩ := hv
    cases hv
    exact h rfl
  · refine List.Pairwise.imp (fun {a b} h => ?_) (List.nodup_range (n := d.x))
    intro u hu hv
    simp only [List.mem_flatMap, List.mem_map] at hu hv
    obtain ⟨_, _, _, _, rfl⟩ := hu
    obtain ⟨_, _, _, _, hv⟩ := hv
    cases hv
    exact h rfl

/-- The threads of block `b` which satisfy `act`. -/
def Launch.blockL (g : Launch α) (act : Tid → Prop) [DecidablePred act] (b : Dim3) : List Tid := (g.threads.box.map (Tid.mk b)).filter fun t => g.Has t ∧ act t

section
variable {g : Launch α} {act : Tid → Prop} [DecidablePred act] {b : Dim3}

omit [FP α] in
theorem Launch.mem_blockL {t : Tid} : t ∈ g.blockL act b ↔ t.blk = b ∧ g.Has t ∧ act t := by
  obtain ⟨tb, tt⟩ := t
  simp only [Launch.blockL, List.mem_filter, List.mem_map, decide_eq_true_eq, Dim3.mem_box]
  constructor
  · rintro ⟨⟨u, _, h⟩, h2⟩
    cases h
    exact ⟨rfl, h2⟩
  · rintro ⟨rfl, h1, h2⟩
    exact ⟨⟨tt, h1.2.2.2, rfl⟩, h1, h2⟩

omit [FP α] in
theorem Launch.blockL_nodup : (g.blockL act b).Nodup :=
  List.Nodup.filter _ ((Dim3.box_nodup _).map fun a b h => by cases h; rfl)

/-- Theorem B for the list of all active threads. -/
theorem Launch.works_of_phases (bufs : Nat → Buf α) (hcov : ∀ t, ¬ (g.Has t ∧ act t) → g.start t = .done) (W : Dim3 → Loc → Prop) (G : Loc → Prop)
    (hW : ∀ b b' l, b ≠ b' → W b l → ¬ W b' l) (hWG : ∀ b l, W b l → ¬ G l) (Post : Dim3 → Mem α → Prop) (hPost : ∀ b m m1, Agree (W b) G m m1 → Post b m → Post b m1)
    (n : Nat) (h : ∀ b, BlockOk (g.blockL act b) (W b) G (Post b) n (g.mem bufs) g.start) :
    g.Works bufs fun bs => ∃ m : Mem α, (bs = fun b => m (.glob b)) ∧ (∀ b, Post b m) ∧ (∀ l, (∀ b, ¬ W b l) → (m l.1).data l.2 = (g.mem bufs l.1).data l.2) ∧
      ∀ sp, (m sp).size = (g.mem bufs sp).size := by
  refine g.works_of_blocks bufs (g.blockL act) (fun b => Launch.blockL_nodup) (fun b t h => (Launch.mem_blockL.1 h).1) (fun t ht => hcov t fun h => ht (Launch.mem_blockL.2 ⟨rfl, h⟩))
    (g.grid.box.flatMap (g.blockL act)) (fun b t ht => ?_) W G hW hWG Post hPost (fun _ => n) h
  have ht' := Launch.mem_blockL.1 ht
  refine List.mem_flatMap.2 ⟨b, ?_, ht⟩
  rw [← ht'.1]
  exact Dim3.mem_box.2 ⟨ht'.2.1.1, ht'.2.1.2.1, ht'.2.1.2.2.1⟩
end

/-! ### From the CPU kernel -/

/-- Each item changes only its own cells. -/
theorem runItems_own {ι : Type} {step : ι → Buf α → M (Buf α)} {own : ι → Nat → Prop} : ∀ {K : List ι}, K.Nodup → (∀ i ∈ K, ∀ j ∈ K, i ≠ j → ∀ x, own i x → ¬ own j x) →
    (∀ i ∈ K, ∀ d d', step i d = .ok d' → d'.size = d.size ∧ ∀ x, ¬ own i x → d'.data x = d.data x) → ∀ {d d' : Buf α}, runItems step K d = .ok d' →
    d'.size = d.size ∧ (∀ x, (∀ i ∈ K, ¬ own i x) → d'.data x = d.data x) ∧
      ∀ i ∈ K, ∃ e e', step i e = .ok e' ∧ e.size = d.size ∧ (∀ x, own i x → e.data x = d.data x) ∧ ∀ x, own i x → d'.data x = e'.data x := by
  intro K
  induction K with
  | nil => intro _ _ _ d d' h; cases h; exact ⟨rfl, fun _ _ => rfl, by simp⟩
  | cons i K ih =>
    intro hn hd hs d d' h
    have hn' := List.nodup_cons.1 hn
    simp only [runItems] at h
    obtain ⟨d1, h1, h2⟩ := M.bind_eq_ok.1 h
    obtain ⟨s1, f1⟩ := hs i (by simp) d d1 h1
    obtain ⟨s2, f2, r2⟩ := ih hn'.2 (fun a ha b hb => hd a (by simp [ha]) b (by simp [hb])) (fun a ha => hs a (by simp [ha])) h2
    refine ⟨s2.trans s1, fun x hx => ?_, fun j hj => ?_⟩
    · rw [f2 x fun a ha => hx a (by simp [ha]), f1 x (hx i (by simp))]
    · rcases List.mem_cons.1 hj with rfl | hj'
      · refine ⟨d, d1, h1, rfl, fun _ _ => rfl, fun x hx => f2 x fun a ha hax => ?_⟩
        exact hd j (by simp) a (by simp [ha]) (by rintro rfl; exact hn'.1 ha) x hx hax
      · obtain ⟨e, e', h3, h4, h5, h6⟩ := r2 j hj'
        refine ⟨e, e', h3, h4.trans s1, fun x hx => ?_, h6⟩
        rw [h5 x hx, f1 x fun hix => hd i (by simp) j hj (by rintro rfl; exact hn'.1 hj') x hix hx]

omit [FP α] in
theorem taskBufs_update (dst dst' : Buf α) (srcs : List (Buf α)) : Function.update (taskBufs dst srcs) 0 dst' = taskBufs dst' srcs := by
  funext b
  cases b with
  | zero => simp [taskBufs]
  | succ b => simp [taskBufs]

theorem Launch.gives_of_works {g : Launch α} {srcs : List (Buf α)} {dst dst' : Buf α} {Post : Dim3 → Mem α → Prop} {W : Dim3 → Loc → Prop}
    (h : g.Works (taskBufs dst srcs) fun bs => ∃ m : Mem α, (bs = fun b => m (.glob b)) ∧ (∀ b, Post b m) ∧
      (∀ l, (∀ b, ¬ W b l) → (m l.1).data l.2 = (g.mem (taskBufs dst srcs) l.1).data l.2) ∧ ∀ sp, (m sp).size = (g.mem (taskBufs dst srcs) sp).size)
    (hW : ∀ b l, W b l → l.1 = .glob 0 ∨ ∃ b, l.1 = .shared b) (hsize : dst'.size = dst.size)
    (hframe : ∀ x, (∀ b, ¬ W b (.glob 0, x)) → dst'.data x = dst.data x)
    (hpost : ∀ m b x, (∀ b, Post b m) → W b (.glob 0, x) → m.rd (.glob 0, x) = dst'.rd x ∧ ∃ v, dst'.rd x = .ok v) : g.Gives srcs dst dst' := by
  refine ⟨⟨h.defined, h.raceFree, h.progress, fun s hs hF => ?_⟩, h.finite⟩
  obtain ⟨m, e, hp, hf, hz⟩ := h.result s hs hF
  rw [e]
  funext b
  have hext : ∀ a a' : Buf α, a.size = a'.size → (∀ x, a.data x = a'.data x) → a = a' := by
    rintro ⟨s, d⟩ ⟨s', d'⟩ h1 h2
    simp only at h1 h2
    subst h1
    congr
    funext x
    exact h2 x
  cases b with
  | zero =>
    refine hext _ _ ?_ fun x => ?_
    · rw [hz]; exact hsize.symm
    by_cases hx : ∃ b, W b (.glob 0, x)
    · obtain ⟨b, hb⟩ := hx
      obtain ⟨h1, v, h2⟩ := hpost m b x hp hb
      rw [h2] at h1
      have key : ∀ (a : Buf α), a.rd x = .ok v → a.data x = some v := by
        intro a ha
        unfold Buf.rd at ha
        split at ha
        swap
        · cases ha
        split at ha
        · cases ha; assumption
        · cases ha
      exact (key _ h1).trans (key _ h2).symm
    · push Not at hx
      exact (hf (.glob 0, x) hx).trans (hframe x hx).symm
  | succ b =>
    refine hext _ _ ?_ fun x => ?_
    · rw [hz]; rfl
    · refine (hf (.glob (b+1), x) fun b' hb' => ?_).trans ?_
      · rcases hW b' _ hb' with h | ⟨_, h⟩ <;> simp at h
      · rfl

end NNTile
