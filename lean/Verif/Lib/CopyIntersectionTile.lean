import Verif.Lib.CopyIntersection
/-! Correctness of the tile-level `copy_intersection`. -/
namespace NNTile
variable {α : Type}

theorem CIAll.box {dims : List CIDim} {sos dOs : List Int} (h : CIAll dims sos dOs) :
    Pos (dims.map CIDim.c) ∧
    (∀ j, InBox (dims.map CIDim.c) j →
      InBox (dims.map CIDim.sN) (addIdx (dims.map CIDim.ss) j) ∧ InBox (dims.map CIDim.dN) (addIdx (dims.map CIDim.ds) j) ∧
      srcIdx dims (addIdx (dims.map CIDim.ds) j) = addIdx (dims.map CIDim.ss) j ∧ InCopy dims (addIdx (dims.map CIDim.ds) j)) ∧
    (∀ I, InCopy dims I → ∃ j, InBox (dims.map CIDim.c) j ∧ I = addIdx (dims.map CIDim.ds) j) := by
  induction h with
  | nil =>
    refine ⟨by simp, ?_, ?_⟩
    · intro j hj; cases j <;> simp_all [srcIdx, InCopy, InRange]
    · intro I hI
      cases I with
      | nil => exact ⟨[], by simp, by simp⟩
      | cons => simp [InCopy, InRange] at hI
  | @cons d ds so sos dO dOs hv _ ih =>
    obtain ⟨i1, i2, i3⟩ := ih
    have h1 := hv.c
    have h2 := hv.src
    have h3 := hv.dst
    refine ⟨by simp only [List.map_cons, Pos_cons]; exact ⟨h1, i1⟩, ?_, ?_⟩
    · intro j hj
      cases j with
      | nil => simp at hj
      | cons x j =>
        simp only [List.map_cons, InBox_cons] at hj
        obtain ⟨c1, c2, c3, c4⟩ := i2 j hj.2
        simp only [List.map_cons, addIdx_cons, InBox_cons, srcIdx, List.zipWith_cons_cons, List.cons.injEq, InCopy, InRange]
        exact ⟨⟨by omega, c1⟩, ⟨by omega, c2⟩, ⟨by omega, c3⟩, ⟨by omega, c4⟩⟩
    · intro I hI
      cases I with
      | nil => simp [InCopy, InRange] at hI
      | cons i I =>
        simp only [InCopy, List.map_cons, InRange] at hI
        obtain ⟨j, e1, e2⟩ := i3 I hI.2
        refine ⟨(i - d.ds) :: j, ?_, ?_⟩
        · simp only [List.map_cons, InBox_cons]; exact ⟨by omega, e1⟩
        · simp only [List.map_cons, addIdx_cons, List.cons.injEq]; exact ⟨by omega, e2⟩

theorem ciTileMode_W {dims : List CIDim} {sos dOs : List Int} (h : CIAll dims sos dOs)
    (hm : ciTileMode (dims.map (fun d => (d.ss, d.ds, d.c))) (dims.map CIDim.dN) = .W) {I : List Nat} (hI : InBox (dims.map CIDim.dN) I) :
    InCopy dims I := by
  induction h generalizing I with
  | nil => cases I <;> simp_all [InCopy, InRange]
  | @cons d ds so sos dO dOs hv _ ih =>
    cases I with
    | nil => simp at hI
    | cons i I =>
      simp only [List.map_cons, InBox_cons] at hI
      simp only [List.map_cons, ciTileMode] at hm
      have h3 := hv.dst
      split at hm
      · cases hm
      · rename_i hc
        simp only [InCopy, List.map_cons, InRange]
        exact ⟨by omega, ih hm hI.2⟩

theorem SamePlace_refl_iff (O : List Int) (I J : List Nat) (hI : I.length = O.length) : SamePlace O J O I ↔ J = I := by
  induction O generalizing I J with
  | nil => cases I <;> cases J <;> simp_all [SamePlace]
  | cons o O ih =>
    match I, J, hI with
    | i :: I, [], _ => simp [SamePlace]
    | i :: I, j :: J, hI =>
      simp only [SamePlace, ih I J (by simpa using hI), List.cons.injEq]
      constructor
      · rintro ⟨a, b⟩; exact ⟨by omega, b⟩
      · rintro ⟨a, b⟩; exact ⟨by omega, b⟩

theorem copyIntersectionTile_spec {s : Store α} {src dst : Handle} {S D : List Nat} {sos dOs : List Int} {scratch : List Nat}
    (hS : Pos S) (hD : Pos D) (hne : src ≠ dst) (hl1 : S.length = sos.length) (hl2 : S.length = D.length) (hl3 : D.length = dOs.length)
    (hsc : scratch.length = 1) (hsc2 : 2 * S.length ≤ scratch.headD 0)
    (hsz : (s src).size = S.prod) (hdz : (s dst).size = D.prod) (hdef : ∀ J, InBox S J → ∃ v, (s src).data (lin S J) = some v) :
    ∃ tasks s', copyIntersectionTile src S sos dst D dOs scratch = .ok tasks ∧ runAll1 tasks s = .ok s' ∧
      (∀ h, h ≠ dst → s' h = s h) ∧ (s' dst).size = D.prod ∧
      ∀ I, InBox D I →
        (∀ J, InBox S J → SamePlace sos J dOs I → (s' dst).data (lin D I) = (s src).data (lin S J)) ∧
        ((∀ J, InBox S J → ¬ SamePlace sos J dOs I) → (s' dst).data (lin D I) = (s dst).data (lin D I)) := by
  simp only [copyIntersectionTile]
  rw [throwIf_neg (by simp [hl1]), throwIf_neg (by simp [hl2]), throwIf_neg (by simp [hl3]), throwIf_neg (by simp [hsc]),
    throwIf_neg (by omega)]
  simp only [M.bind_ok]
  have hone : ∀ (t : Task1 α) b', t.out = dst → t.reads = [src] → t.fn [s src] (t.inp (s dst)) = .ok b' →
      runAll1 [t] s = .ok (fun k => if k = dst then b' else s k) := by
    intro t b' ho hr hf
    have := Task1.exec_ok t s b' (by rw [ho, hr]; simpa using hne.symm) (by rw [hr, ho]; exact hf)
    simp only [runAll1, List.map_cons, List.map_nil, runAll, this, M.bind_ok, ho]
  have hcopy : S = D → sos = dOs → ∃ s', runAll1 [submitCopy src dst] s = .ok s' ∧
      (∀ h, h ≠ dst → s' h = s h) ∧ (s' dst).size = D.prod ∧
      ∀ I, InBox D I →
        (∀ J, InBox S J → SamePlace sos J dOs I → (s' dst).data (lin D I) = (s src).data (lin S J)) ∧
        ((∀ J, InBox S J → ¬ SamePlace sos J dOs I) → (s' dst).data (lin D I) = (s dst).data (lin D I)) := by
    intro e1 e2
    have hz : (s src).size = (s dst).size := by rw [hsz, hdz, e1]
    have h2 := copyTask_ok hz
    simp only [foldBuf] at h2
    rw [M.bind_eq_ok] at h2
    obtain ⟨b', hb', hb2⟩ := h2
    refine ⟨_, hone _ b' rfl rfl hb', ?_, ?_, ?_⟩
    · intro h hh; simp [hh]
    · simp only [if_true]; cases hb2; exact hdz
    · intro I hI
      refine ⟨?_, ?_⟩
      · intro J hJ hp
        rw [← e2] at hp
        have := (SamePlace_refl_iff sos I J (by rw [hI.length, ← hl2, hl1])).1 hp
        subst this
        simp only [if_true]
        cases hb2
        simp only
        rw [← e1, if_pos (by rw [hsz]; exact lin_lt hJ)]
      · intro hno
        exact absurd ((SamePlace_refl_iff sos I I (by rw [hI.length, ← hl2, hl1])).2 rfl) (by
          have := hno I (e1 ▸ hI); rwa [← e2] at this)
  split
  · rename_i h0
    have e1 : S = [] := List.eq_nil_of_length_eq_zero h0
    have e2 : D = [] := List.eq_nil_of_length_eq_zero (by omega)
    have e3 : sos = [] := List.eq_nil_of_length_eq_zero (by omega)
    have e4 : dOs = [] := List.eq_nil_of_length_eq_zero (by omega)
    obtain ⟨s', a⟩ := hcopy (by rw [e1, e2]) (by rw [e3, e4])
    exact ⟨_, s', rfl, a⟩
  · rename_i h0
    split
    · rename_i hc
      obtain ⟨s', a⟩ := hcopy hc.2 hc.1
      exact ⟨_, s', rfl, a⟩
    · split
      · rename_i hnone
        refine ⟨[], s, rfl, rfl, fun _ _ => rfl, hdz, ?_⟩
        intro I hI
        exact ⟨fun J hJ hp => absurd hp (ciDims_none hnone I J hI hJ), fun _ => rfl⟩
      · rename_i dims hsome
        obtain ⟨q1, q2, q3, q4, h⟩ := ciDims_some hsome hl1 hl1 (by omega) (by omega) (by omega) hS hS hD hD
        have hdl : dims.length = S.length := by rw [← q1]; simp
        obtain ⟨p1, p2, p3⟩ := h.box
        set t : Task1 α := submitSubcopy ((dims.map (fun d => (d.ss, d.ds, d.c))).map (·.1)) (strideFrom 1 S)
          ((dims.map (fun d => (d.ss, d.ds, d.c))).map (·.2.1)) (strideFrom 1 D) ((dims.map (fun d => (d.ss, d.ds, d.c))).map (·.2.2)) src dst
          (ciTileMode (dims.map (fun d => (d.ss, d.ds, d.c))) D) with ht
        rw [q1, q3] at p2
        have hzi : (t.inp (s dst)).size = D.prod := by simp only [Task1.inp]; split <;> simp [hdz]
        obtain ⟨b', e, k1, k2, k3⟩ := subcopy_tiles (α := α) (S := S) (D := D) (srcStart := dims.map CIDim.ss) (dstStart := dims.map CIDim.ds)
          (box := dims.map CIDim.c) (src := s src) (dst := t.inp (s dst))
          (by
            intro h1
            have := congrArg List.length h1
            rw [List.length_map, List.length_nil] at this
            omega)
          p1 (by simp) (by simp) (fun j hj => (p2 j hj).1) (fun j hj => (p2 j hj).2.1) hsz hzi
          (fun j hj => hdef _ (p2 j hj).1)
        refine ⟨_, _, rfl, hone t b' rfl rfl ?_, ?_, ?_, ?_⟩
        · simp only [ht, submitSubcopy, List.map_map, Function.comp_def]
          exact e
        · intro k hk; simp [hk]
        · simp only [if_true]; rw [k1, hzi]
        · intro I hI
          have hci := h.copy_iff (I := I) (by rw [q3]; exact hI)
          rw [q1] at hci
          simp only [if_true]
          constructor
          · intro J hJ hp
            obtain ⟨w1, w2⟩ := hci.2 J hJ hp
            obtain ⟨j, hj, rfl⟩ := p3 I w1
            rw [k2 j hj, w2, (p2 j hj).2.2.1]
          · intro hno
            have hnc : ¬ InCopy dims I := fun hc => hno _ (hci.1 hc).1 (hci.1 hc).2
            rw [k3 I hI (fun j hj he => hnc (by rw [he]; exact (p2 j hj).2.2.2))]
            simp only [Task1.inp]
            rw [if_neg]
            intro hm
            apply hnc
            refine ciTileMode_W h ?_ (by rw [q3]; exact hI)
            rw [q3]; exact hm

end NNTile
