import Verif.Lib.RandnTensor
/-!
# C07 — randn is reproducible for every sub-box and every tiling

The generated array does not depend on floating point: `uniform` and `normal` (the conversion of the generator state to a number and the
Box-Muller formula with mean and standard deviation) are arbitrary functions.
-/
namespace NNTile
variable {α υ : Type _}

/-- Kernel, any strides: the element `j` of the tile gets the number of the stream whose position is the column-major position of
`start + j` in the underlying array; all other memory of the buffer is untouched; no undefined behaviour. -/
theorem C07_kernel (uniform : Seed → υ) (normal : υ → υ → α) (seed : Seed) {start shape underlying stride : List Nat} {buf : Buf α}
    (hne : shape ≠ []) (hsh : Pos shape) (h1 : start.length = shape.length) (h2 : stride.length = shape.length)
    (hU : List.Forall₂ (· ≤ ·) shape underlying)
    (hin : ∀ j, InBox shape j → dot stride j < buf.size)
    (hinj : ∀ i j, InBox shape i → InBox shape j → dot stride i = dot stride j → i = j) :
    ∃ buf', randnKernel uniform normal shape.prod seed start shape underlying stride buf = .ok buf' ∧ buf'.size = buf.size ∧
      (∀ j, InBox shape j → buf'.data (dot stride j) = some (nthNormal uniform normal seed (lin underlying (addIdx start j)))) ∧
      (∀ c, (∀ j, InBox shape j → c ≠ dot stride j) → buf'.data c = buf.data c) :=
  randn_spec hne hsh h1 h2 hU hin hinj

/-- The box `start .. start + shape` is inside of the underlying array. -/
def BoxFits (start : List Int) (shape : List Nat) (underlying : List Int) : Prop :=
  start.length = shape.length ∧ underlying.length = shape.length ∧
  ∀ i (h1 : i < start.length) (h2 : i < shape.length) (h3 : i < underlying.length),
    0 ≤ start[i] ∧ start[i] + (shape[i] : Int) ≤ underlying[i]

theorem boxFits_iff {start underlying : List Int} {shape : List Nat} : BoxFits start shape underlying ↔
    ∃ st us : List Nat, start = toInts st ∧ underlying = toInts us ∧ st.length = shape.length ∧
      List.Forall₂ (· ≤ ·) (addIdx st shape) us := by
  induction shape generalizing start underlying with
  | nil =>
    constructor
    · rintro ⟨h1, h2, -⟩
      have e1 : start = [] := by simpa using h1
      have e2 : underlying = [] := by simpa using h2
      subst e1 e2
      exact ⟨[], [], rfl, rfl, rfl, by simp⟩
    · rintro ⟨st, us, rfl, rfl, h, h'⟩
      have e1 : st = [] := by simpa using h
      subst e1
      simp at h'
      subst h'
      exact ⟨rfl, rfl, by simp⟩
  | cons s shape ih =>
    constructor
    · rintro ⟨h1, h2, h3⟩
      cases start with
      | nil => simp at h1
      | cons a start => cases underlying with
        | nil => simp at h2
        | cons u underlying =>
          obtain ⟨st, us, rfl, rfl, h4, h5⟩ := ih.1 ⟨by simpa using h1, by simpa using h2, fun i q1 q2 q3 => by
            have := h3 (i+1) (by simpa using q1) (by simpa using q2) (by simpa using q3)
            simpa using this⟩
          have h0 := h3 0 (by simp) (by simp) (by simp)
          simp only [List.getElem_cons_zero] at h0
          refine ⟨a.toNat :: st, u.toNat :: us, ?_, ?_, ?_, ?_⟩
          · simp; omega
          · simp; omega
          · simpa using h4
          · simp only [addIdx_cons, List.forall₂_cons]
            exact ⟨by omega, h5⟩
    · rintro ⟨st, us, rfl, rfl, h, h'⟩
      cases st with
      | nil => simp at h
      | cons a st => cases us with
        | nil => simp at h'
        | cons u us =>
          simp only [addIdx_cons, List.forall₂_cons] at h'
          obtain ⟨k1, k2, k3⟩ := ih.2 ⟨st, us, rfl, rfl, by simpa using h, h'.2⟩
          refine ⟨by simpa using h, by simpa using k2, ?_⟩
          intro i q1 q2 q3
          cases i with
          | zero => simp; omega
          | succ i =>
            simp only [toInts_cons, List.getElem_cons_succ]
            exact k3 i (by simpa using q1) (by simpa using q2) (by simpa using q3)

/-- Tensor operation: accepted exactly when the box fits in the underlying array (otherwise an exception, no task is submitted). -/
theorem C07_accepts (uniform : Seed → υ) (normal : υ → υ → α) (dst : Tensor) (hd : dst.WF) (start underlying : List Int) (seed : Seed) :
    (BoxFits start dst.shape underlying → ∃ tasks, randnAsync uniform normal dst start underlying seed = .ok tasks) ∧
    (¬ BoxFits start dst.shape underlying → Throws (randnAsync uniform normal dst start underlying seed)) := by
  constructor
  · intro h
    obtain ⟨st, us, rfl, rfl, h1, h2⟩ := boxFits_iff.1 h
    obtain ⟨tasks, s', h3, -⟩ := randnAsync_spec uniform normal hd h1 h2 seed
      (fun h : Handle => Buf.undef (dst.tshapeL h.2).prod) (by intro i _; rfl)
    exact ⟨tasks, h3⟩
  · intro h
    simp only [randnAsync]
    by_cases h1 : dst.ndim = start.length
    · rw [if_neg (by simpa using h1)]
      by_cases h2 : dst.ndim = underlying.length
      · rw [if_neg (by simpa using h2)]
        have hn : randnCheck start dst.shape underlying ≠ .ok () := by
          intro hc
          obtain ⟨st, us, rfl, rfl, hle⟩ := (randnCheck_ok_iff h1.symm h2.symm).1 hc
          exact h (boxFits_iff.2 ⟨st, us, rfl, rfl, by simpa [Tensor.ndim] using h1.symm, hle⟩)
        have ht : ∀ a b c, randnCheck a b c = .ok () ∨ Throws (randnCheck a b c) := by
          intro a
          induction a with
          | nil => intro b c; left; cases b <;> cases c <;> rfl
          | cons x a ih =>
            intro b c
            cases b with
            | nil => left; rfl
            | cons y b => cases c with
              | nil => left; rfl
              | cons z c =>
                simp only [randnCheck]
                split
                · exact Or.inr ⟨_, rfl⟩
                · split
                  · exact Or.inr ⟨_, rfl⟩
                  · exact ih b c
        rcases ht start dst.shape underlying with h' | ⟨m, h'⟩
        · exact absurd h' hn
        · refine ⟨m, ?_⟩
          simp only [pure_bind, h', M.bind_error]
      · rw [if_pos (by simpa using h2)]; exact ⟨_, rfl⟩
    · rw [if_pos (by simpa using h1)]; exact ⟨_, rfl⟩

/-- Position of element `start + idx` in the underlying array (column-major). -/
def underlyingPos (underlying start : List Int) (idx : List Nat) : Nat :=
  lin (underlying.map Int.toNat) (addIdx (start.map Int.toNat) idx)

theorem map_toNat_toInts (l : List Nat) : (toInts l).map Int.toNat = l := by
  induction l with
  | nil => rfl
  | cons a l ih => simp [ih]

/-- Tensor operation: whatever the tiling of `dst` and its previous contents, afterwards the element `I` of `dst` is the number at the
position of `start + I` in the stream of the whole underlying array; nothing else changes. -/
theorem C07_randn (uniform : Seed → υ) (normal : υ → υ → α) (dst : Tensor) (hd : dst.WF) (start underlying : List Int) (seed : Seed)
    (hfit : BoxFits start dst.shape underlying) (s : Store α) (ha : dst.Alloc s) :
    ∃ tasks s', randnAsync uniform normal dst start underlying seed = .ok tasks ∧ runAll1 tasks s = .ok s' ∧
      (∀ I, InBox dst.shape I → dst.get s' I = some (nthNormal uniform normal seed (underlyingPos underlying start I))) ∧
      OnlyChanged [dst.id] s s' := by
  obtain ⟨st, us, rfl, rfl, h1, h2⟩ := boxFits_iff.1 hfit
  obtain ⟨tasks, s', a, b, c, d, -⟩ := randnAsync_spec uniform normal hd h1 h2 seed s ha
  refine ⟨tasks, s', a, b, ?_, d⟩
  simpa only [underlyingPos, map_toNat_toInts] using c

/-- Reproducibility: generating a box directly (tensor `part`, any tiling) gives the same numbers as the corresponding part of the
generated whole underlying array (tensor `whole`, any tiling). -/
theorem C07_slice (uniform : Seed → υ) (normal : υ → υ → α) (whole part : Tensor) (hw : whole.WF) (hp : part.WF)
    (start : List Int) (seed : Seed) (hfit : BoxFits start part.shape (toInts whole.shape))
    (s₁ s₂ : Store α) (ha₁ : whole.Alloc s₁) (ha₂ : part.Alloc s₂) :
    ∃ t₁ s₁' t₂ s₂', randnAsync uniform normal whole (whole.shape.map fun _ => 0) (toInts whole.shape) seed = .ok t₁ ∧
      runAll1 t₁ s₁ = .ok s₁' ∧ randnAsync uniform normal part start (toInts whole.shape) seed = .ok t₂ ∧ runAll1 t₂ s₂ = .ok s₂' ∧
      ∀ I, InBox part.shape I → part.get s₂' I = whole.get s₁' (addIdx (start.map Int.toNat) I) := by
  obtain ⟨st, us, rfl, hus, h1, h2⟩ := boxFits_iff.1 hfit
  have hus' : us = whole.shape := by
    have := congrArg (List.map Int.toNat) hus; rwa [map_toNat_toInts, map_toNat_toInts, eq_comm] at this
  subst hus'
  have hz : (whole.shape.map fun _ => (0 : Int)) = toInts (whole.shape.map fun _ => 0) := by
    induction whole.shape with
    | nil => rfl
    | cons a l ih => simp [ih]
  have hzz : ∀ l m : List Nat, m.length = l.length → addIdx (l.map fun _ => 0) m = m := by
    intro l
    induction l with
    | nil => intro m h; simp at h; subst h; rfl
    | cons a l ih => intro m h; cases m with
      | nil => simp at h
      | cons b m => simp at h; have := ih m h; simp only [List.map_cons, addIdx_cons, Nat.zero_add, this]
  have hrefl : ∀ l : List Nat, List.Forall₂ (· ≤ ·) l l := by
    intro l; induction l with
    | nil => simp
    | cons a l ih => simp [ih]
  obtain ⟨t₁, s₁', a1, b1, c1, -⟩ := randnAsync_spec uniform normal hw (st := whole.shape.map fun _ => 0) (us := whole.shape)
    (by simp) (by rw [hzz _ _ rfl]; exact hrefl _) seed s₁ ha₁
  obtain ⟨t₂, s₂', a2, b2, c2, -⟩ := randnAsync_spec uniform normal hp h1 h2 seed s₂ ha₂
  refine ⟨t₁, s₁', t₂, s₂', by rw [hz]; exact a1, b1, a2, b2, ?_⟩
  intro I hI
  have hb : InBox whole.shape (addIdx st I) := by
    have key : ∀ (st sh us I : List Nat), st.length = sh.length → List.Forall₂ (· ≤ ·) (addIdx st sh) us → InBox sh I → InBox us (addIdx st I) := by
      intro st
      induction st with
      | nil => intro sh us I h1 h2 h3; have : sh = [] := by simpa using h1.symm
               subst this; simp at h2; subst h2; cases I <;> simp_all
      | cons a st ih => intro sh us I h1 h2 h3; cases sh with
        | nil => simp at h1
        | cons b sh => cases I with
          | nil => simp at h3
          | cons i I => cases us with
            | nil => simp at h2
            | cons u us =>
              simp only [addIdx_cons, List.forall₂_cons, InBox_cons] at h2 h3 ⊢
              exact ⟨by omega, ih sh us I (by simpa using h1) h2.2 h3.2⟩
    exact key _ _ _ _ h1 h2 hI
  rw [map_toNat_toInts, c2 I hI, c1 _ hb, hzz _ _ hb.length]

/-- The result does not depend on the tiling. -/
theorem C07_tiling_independent (uniform : Seed → υ) (normal : υ → υ → α) (A B : Tensor) (hA : A.WF) (hB : B.WF)
    (hAB : A.shape = B.shape) (start underlying : List Int) (seed : Seed) (hfit : BoxFits start A.shape underlying)
    (s : Store α) (haA : A.Alloc s) (haB : B.Alloc s) :
    ∃ tA sA tB sB, randnAsync uniform normal A start underlying seed = .ok tA ∧ runAll1 tA s = .ok sA ∧
      randnAsync uniform normal B start underlying seed = .ok tB ∧ runAll1 tB s = .ok sB ∧
      ∀ I, InBox A.shape I → A.get sA I = B.get sB I := by
  obtain ⟨tA, sA, a1, a2, a3, -⟩ := C07_randn uniform normal A hA start underlying seed hfit s haA
  obtain ⟨tB, sB, b1, b2, b3, -⟩ := C07_randn uniform normal B hB start underlying seed (hAB ▸ hfit) s haB
  exact ⟨tA, sA, tB, sB, a1, a2, b1, b2, fun I hI => by rw [a3 I hI, b3 I (hAB ▸ hI)]⟩

/-- A case with leftover tiles and a non-zero start. -/
example : BoxFits [1, 2] [5, 4] [7, 6] ∧ (Tensor.mk 0 [5, 4] [2, 3]).WF := by
  refine ⟨boxFits_iff.2 ⟨[1,2], [7,6], rfl, rfl, rfl, by simp⟩, by decide⟩
/-- Concrete run: a tile `2×2` at `(1,1)` of a `3×3` underlying array contains the numbers 4, 5, 7, 8 of the stream. -/
example : ∃ d, randnKernel (α := Seed × Seed) (υ := Seed) id Prod.mk 4 5#64 [1,1] [2,2] [3,3] [1,2] (Buf.undef 4) = .ok d ∧
    (List.range 4).map d.data = [4,5,7,8].map (fun k => some (nthNormal id Prod.mk 5#64 k)) := by
  refine ⟨_, rfl, ?_⟩
  decide +kernel

end NNTile
