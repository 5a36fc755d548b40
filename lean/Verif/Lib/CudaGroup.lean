import Verif.Lib.CudaItems
/-! Threads that process several items in a loop. -/
namespace NNTile
variable {α : Type} [FP α]

/-- `f` executes the programs of `L` one after another. -/
def PM.Seq (f : PM α Unit) (L : List (Prog α)) : Prop := ∀ (k : Unit → Prog α) m, (f k).run m = (runProgs L m).bind fun m => (k ()).run m

/-- The footprint of `f`. -/
def PM.FootK (m0 : Mem α) (own free acc : Loc → Prop) (f : PM α Unit) : Prop := ∀ k : Unit → Prog α, (k ()).Foot m0 own free acc → (f k).Foot m0 own free acc

theorem forP_seq (B : Nat → PM α Unit) (L : Nat → List (Prog α)) (hB : ∀ q, (B q).Seq (L q)) (n : Nat) :
    PM.Seq (forP n (fun q _ => B q) ()) ((List.range n).flatMap L) := by
  induction n with
  | zero => intro k m; rfl
  | succ n ih =>
    intro k m
    simp only [forP]
    rw [ih, List.range_succ, List.flatMap_append, runProgs_append]
    cases h : runProgs ((List.range n).flatMap L) m with
    | error e => rfl
    | ok m1 =>
      change (B n k).run m1 = _
      rw [hB n k m1]
      simp only [List.flatMap_cons, List.flatMap_nil, List.append_nil]
      rfl

theorem forP_footK {m0 : Mem α} {own free acc : Loc → Prop} (B : Nat → PM α Unit) (n : Nat) (hB : ∀ q < n, (B q).FootK m0 own free acc) :
    PM.FootK m0 own free acc (forP n (fun q _ => B q) ()) := by
  induction n with
  | zero => intro k hk; exact hk
  | succ n ih =>
    intro k hk
    exact ih (fun q hq => hB q (by omega)) _ (hB n (by omega) k hk)

/-- The programs of the items of a loop over threads of groups of items. -/
theorem Launch.gives_of_groups {ι τ : Type} [DecidableEq ι] (g : Launch α) (srcs : List (Buf α)) (dst : Buf α) (K : List ι) (hK : K.Nodup) (T : List τ) (grp : τ → List ι)
    (hperm : K.Perm (T.flatMap grp)) (hT : T.Nodup) (tid : τ → Tid) (hinj : ∀ t ∈ T, ∀ u ∈ T, tid t = tid u → t = u)
    (hcov : ∀ t, (∀ u ∈ T, tid u ≠ t) → g.start t = .done) (P : ι → Prog α) (thr : τ → PM α Unit) (hthr : ∀ t ∈ T, g.start (tid t) = (thr t).prog)
    (hseq : ∀ t ∈ T, (thr t).Seq ((grp t).map P)) (own : ι → Nat → Prop) (hdisj : ∀ i ∈ K, ∀ j ∈ K, i ≠ j → ∀ x, own i x → ¬ own j x)
    (hfoot : ∀ i ∈ K, (P i).Foot (g.mem (taskBufs dst srcs)) (fun l => l.1 = .glob 0 ∧ own i l.2) (fun l => ∃ b, l.1 = .glob (b+1)) (fun _ => False))
    (hfootT : ∀ t ∈ T, (thr t).FootK (g.mem (taskBufs dst srcs)) (fun l => l.1 = .glob 0 ∧ ∃ i ∈ grp t, own i l.2) (fun l => ∃ b, l.1 = .glob (b+1)) (fun _ => False))
    (step : ι → Buf α → M (Buf α))
    (hrun : ∀ i ∈ K, ∀ d d', step i d = .ok d' → (P i).run (g.mem (taskBufs d srcs)) = .ok (g.mem (taskBufs d' srcs)))
    {dst' : Buf α} (h : runItems step K dst = .ok dst') : g.Gives srcs dst dst' := by
  let o : Owned ι := ⟨fun i l => i ∈ K ∧ l.1 = .glob 0 ∧ own i l.2, fun l => ∃ b, l.1 = .glob (b+1), fun _ => False⟩
  have ho : o.Ok α := by
    refine ⟨?_, ?_, fun _ _ _ h => h, fun _ h => h.elim, fun _ h => h.elim⟩
    · rintro i j l hij ⟨hi, _, hx⟩ ⟨hj, _, hy⟩
      exact hdisj i hi j hj hij _ hx hy
    · rintro i l ⟨_, hl, _⟩ ⟨b, hb⟩
      rw [hl] at hb; simp at hb
  have hr : ∀ (L : List ι) d, (∀ i ∈ L, i ∈ K) → ∀ d', runItems step L d = .ok d' → runProgs (L.map P) (g.mem (taskBufs d srcs)) = .ok (g.mem (taskBufs d' srcs)) := by
    intro L
    induction L with
    | nil => intro d _ d' h; cases h; rfl
    | cons i L ih =>
      intro d hL d' h
      simp only [runItems] at h
      obtain ⟨d1, h1, h⟩ := M.bind_eq_ok.1 h
      simp only [List.map_cons, runProgs, hrun i (hL i List.mem_cons_self) d d1 h1, M.bind_ok]
      exact ih d1 (fun j hj => hL j (List.mem_cons_of_mem _ hj)) d' h
  have h1 := hr K dst (fun _ h => h) dst' h
  have h2 := runProgs_perm ho P hperm hK (fun i hi => (hfoot i hi).mono fun l hl => ⟨hi, hl⟩) _ (fun _ _ => rfl) _ h1
  have h3 : ∀ (U : List τ) m, (∀ t ∈ U, t ∈ T) → runProgs ((U.map tid).map g.start) m = runProgs ((U.flatMap grp).map P) m := by
    intro U
    induction U with
    | nil => intro m _; rfl
    | cons t U ih =>
      intro m hU
      simp only [List.map_cons, List.flatMap_cons, List.map_append, runProgs_append, runProgs]
      rw [hthr t (hU t List.mem_cons_self)]
      unfold PM.prog
      rw [hseq t (hU t List.mem_cons_self)]
      cases hm : runProgs ((grp t).map P) m with
      | error e => rfl
      | ok m1 => exact ih m1 fun u hu => hU u (List.mem_cons_of_mem _ hu)
  rw [← h3 T _ (fun _ h => h)] at h2
  have hnd : (T.flatMap grp).Nodup := hperm.nodup_iff.1 hK
  let o' : Owned Tid := ⟨fun t l => ∃ u ∈ T, tid u = t ∧ l.1 = .glob 0 ∧ ∃ i ∈ grp u, own i l.2, fun l => ∃ b, l.1 = .glob (b+1), fun _ => False⟩
  have ho' : o'.Ok α := by
    refine ⟨?_, ?_, fun _ _ _ h => h, fun _ h => h.elim, fun _ h => h.elim⟩
    · rintro t u l htu ⟨a, ha, rfl, _, i, hi, hx⟩ ⟨b, hb, rfl, _, j, hj, hy⟩
      have hab : a ≠ b := fun e => htu (e ▸ rfl)
      have hij : i ≠ j := by
        rintro rfl
        rw [List.nodup_flatMap] at hnd
        haveI : Std.Symm (Function.onFun List.Disjoint grp) := ⟨fun _ _ h => List.disjoint_comm.1 h⟩
        exact (List.Pairwise.forall hnd.2 ha hb hab) hi hj
      exact hdisj i (hperm.mem_iff.2 (List.mem_flatMap.2 ⟨a, ha, hi⟩)) j (hperm.mem_iff.2 (List.mem_flatMap.2 ⟨b, hb, hj⟩)) hij _ hx hy
    · rintro t l ⟨_, _, rfl, hl, _⟩ ⟨b, hb⟩
      rw [hl] at hb; simp at hb
  exact g.works_of_owned (taskBufs dst srcs) ho' (T.map tid) ((List.nodup_map_iff_inj_on hT).2 hinj)
    (fun t ht => hcov t fun i hi e => ht (List.mem_map.2 ⟨i, hi, e⟩))
    (fun t ht => by
      obtain ⟨u, hu, rfl⟩ := List.mem_map.1 ht
      rw [hthr u hu]
      exact Prog.Foot.mono (fun l hl => ⟨u, hu, rfl, hl.1, hl.2⟩) (hfootT u hu _ trivial)) h2

end NNTile
