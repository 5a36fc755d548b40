import Verif.Model.Copy
import Verif.Lib.TileLoop
import Verif.Lib.Subcopy
import Verif.Lib.Traits
/-! Lemmas about copying. -/
namespace NNTile
variable {α : Type}

/-- `subcopy` between column-major tiles. -/
theorem subcopy_tiles {S D srcStart dstStart box : List Nat} {src dst : Buf α}
    (hne : box ≠ []) (hbox : Pos box) (h1 : srcStart.length = box.length) (h3 : dstStart.length = box.length)
    (hS : ∀ j, InBox box j → InBox S (addIdx srcStart j)) (hD : ∀ j, InBox box j → InBox D (addIdx dstStart j))
    (hsz : src.size = S.prod) (hdz : dst.size = D.prod)
    (hdef : ∀ j, InBox box j → ∃ v, src.data (lin S (addIdx srcStart j)) = some v) :
    ∃ dst', subcopyKernel srcStart (strideFrom 1 S) box src dstStart (strideFrom 1 D) dst = .ok dst' ∧ dst'.size = dst.size ∧
      (∀ j, InBox box j → dst'.data (lin D (addIdx dstStart j)) = src.data (lin S (addIdx srcStart j))) ∧
      (∀ I, InBox D I → (∀ j, InBox box j → I ≠ addIdx dstStart j) → dst'.data (lin D I) = dst.data (lin D I)) := by
  have hb0 : InBox box (unlin box 0) := unlin_inBox hbox 0
  have l1 : S.length = box.length := by
    rw [← (hS _ hb0).length, addIdx_length (by rw [hb0.length, h1]), h1]
  have l2 : D.length = box.length := by
    rw [← (hD _ hb0).length, addIdx_length (by rw [hb0.length, h3]), h3]
  have hd : ∀ X : List Nat, X.length = box.length → (strideFrom 1 X).head? = some 1 := by
    intro X hX
    cases X with
    | nil => simp at hX; exact absurd hX.symm (by simpa using hne)
    | cons x X => rfl
  obtain ⟨dst', e, hs, hc, ho⟩ := subcopy_spec (sst := srcStart) (sd := strideFrom 1 S) (sh := box) (dst := dstStart)
    (dd := strideFrom 1 D) (src := src) (buf := dst) hne hbox h1 (by simp [l1]) h3 (by simp [l2]) (hd S l1) (hd D l2)
    (by
      intro j hj
      rw [dot_stride]
      exact ⟨by rw [hsz]; exact lin_lt (hS j hj), hdef j hj⟩)
    (by intro j hj; rw [dot_stride, hdz]; exact lin_lt (hD j hj))
    (by
      intro i j hi hj h
      rw [dot_stride, dot_stride] at h
      exact addIdx_inj (by rw [hi.length, h3]) (by rw [hj.length, h3]) (lin_inj (hD i hi) (hD j hj) h))
  simp only [dot_stride] at hc ho
  refine ⟨dst', e, hs, hc, ?_⟩
  intro I hI h
  exact ho _ (fun j hj hl => h j hj (lin_inj hI (hD j hj) hl))

/-- A list of tasks with read-write access, each writing the cells of its part `P` with values of one common specification. -/
theorem foldBuf_cover {s : Store α} {ts : List (Task1 α)} {N : Nat} {D : List Nat} (P : Task1 α → List Nat → Prop) (v : List Nat → Option α)
    (hmode : ∀ t ∈ ts, t.mode ≠ .W)
    (h : ∀ t ∈ ts, ∀ b : Buf α, b.size = N → ∃ b', t.fn (t.reads.map s) b = .ok b' ∧ b'.size = N ∧
      ∀ l, InBox D l → (P t l → b'.data (lin D l) = v l) ∧ (¬ P t l → b'.data (lin D l) = b.data (lin D l)))
    (b : Buf α) (hb : b.size = N) :
    ∃ b', foldBuf s ts b = .ok b' ∧ b'.size = N ∧
      ∀ l, InBox D l → ((∃ t ∈ ts, P t l) → b'.data (lin D l) = v l) ∧ ((∀ t ∈ ts, ¬ P t l) → b'.data (lin D l) = b.data (lin D l)) := by
  induction ts generalizing b with
  | nil => exact ⟨b, rfl, hb, fun l _ => ⟨by simp, fun _ => rfl⟩⟩
  | cons t ts ih =>
    obtain ⟨b1, e1, z1, c1⟩ := h t (by simp) b hb
    obtain ⟨b2, e2, z2, c2⟩ := ih (fun u hu => hmode u (by simp [hu])) (fun u hu => h u (by simp [hu])) b1 z1
    refine ⟨b2, ?_, z2, ?_⟩
    · simp only [foldBuf, Task1.inp]
      rw [if_neg (hmode t (by simp)), e1]; exact e2
    · intro l hl
      constructor
      · rintro ⟨u, hu, hP⟩
        by_cases hex : ∃ w ∈ ts, P w l
        · exact (c2 l hl).1 hex
        · rcases List.mem_cons.1 hu with rfl | hu
          · rw [(c2 l hl).2 (fun w hw hPw => hex ⟨w, hw, hPw⟩)]
            exact (c1 l hl).1 hP
          · exact absurd ⟨u, hu, hP⟩ hex
      · intro hno
        rw [(c2 l hl).2 (fun w hw => hno w (by simp [hw]))]
        exact (c1 l hl).2 (hno t (by simp))

/-- The same where the first task may be write-only. -/
theorem foldBuf_cover_first {s : Store α} {t0 : Task1 α} {ts : List (Task1 α)} {N : Nat} {D : List Nat} (P : Task1 α → List Nat → Prop)
    (v : List Nat → Option α) (hmode : ∀ t ∈ ts, t.mode ≠ .W)
    (h : ∀ t ∈ t0 :: ts, ∀ b : Buf α, b.size = N → ∃ b', t.fn (t.reads.map s) b = .ok b' ∧ b'.size = N ∧
      ∀ l, InBox D l → (P t l → b'.data (lin D l) = v l) ∧ (¬ P t l → b'.data (lin D l) = b.data (lin D l)))
    (b : Buf α) (hb : b.size = N) :
    ∃ b', foldBuf s (t0 :: ts) b = .ok b' ∧ b'.size = N ∧
      ∀ l, InBox D l → ((∃ t ∈ t0 :: ts, P t l) → b'.data (lin D l) = v l) ∧
        ((∀ t ∈ t0 :: ts, ¬ P t l) → b'.data (lin D l) = if t0.mode = .W then none else b.data (lin D l)) := by
  have hz : (t0.inp b).size = N := by simp only [Task1.inp]; split <;> simp [hb]
  obtain ⟨b1, e1, z1, c1⟩ := h t0 (by simp) (t0.inp b) hz
  obtain ⟨b2, e2, z2, c2⟩ := foldBuf_cover (s := s) (ts := ts) P v hmode (fun u hu => h u (by simp [hu])) b1 z1
  refine ⟨b2, ?_, z2, ?_⟩
  · simp only [foldBuf]; rw [e1]; exact e2
  · intro l hl
    constructor
    · rintro ⟨u, hu, hP⟩
      by_cases hex : ∃ w ∈ ts, P w l
      · exact (c2 l hl).1 hex
      · rcases List.mem_cons.1 hu with rfl | hu
        · rw [(c2 l hl).2 (fun w hw hPw => hex ⟨w, hw, hPw⟩)]
          exact (c1 l hl).1 hP
        · exact absurd ⟨u, hu, hP⟩ hex
    · intro hno
      rw [(c2 l hl).2 (fun w hw => hno w (by simp [hw])), (c1 l hl).2 (hno t0 (by simp))]
      simp only [Task1.inp]; split <;> simp

theorem odoLoop1_ok {σ τ : Type} {next : σ → M σ} {body : Nat → σ → M (List τ)} {S : Nat → σ} {g : Nat → List τ} {n : Nat}
    (hnext : ∀ i, i + 1 < n → next (S i) = .ok (S (i+1))) (hbody : ∀ i, i < n → body i (S i) = .ok (g i)) :
    odoLoop1 next body (n - 1) 1 (S 0) = .ok ((List.range' 1 (n - 1)).flatMap g) := by
  have key : ∀ r i, i + 1 + r = n → odoLoop1 next body r (i + 1) (S i) = .ok ((List.range' (i + 1) r).flatMap g) := by
    intro r
    induction r with
    | zero => intro i _; rfl
    | succ r ih =>
      intro i hi
      simp only [odoLoop1]
      rw [hnext i (by omega), M.bind_ok, hbody (i+1) (by omega), M.bind_ok, ih (i+1) (by omega), M.bind_ok, List.range'_succ,
        List.flatMap_cons]
  cases n with
  | zero => rfl
  | succ n => exact key n 0 (by omega)

/-! ### Single-tile tensors -/

theorem addIdx_replicate_zero {l : List Nat} {n : Nat} (h : l.length = n) : addIdx (List.replicate n 0) l = l := by
  induction l generalizing n with
  | nil => simp
  | cons a l ih => subst h; simp [List.replicate_succ, ih rfl]

/-- A grid with one tile. -/
theorem single_grid {S B : List Nat} (hS : Pos S) (hl : B.length = S.length) (h : (gridOf S B).prod = 1) :
    gridOf S B = List.replicate S.length 1 := by
  induction S generalizing B with
  | nil => simp
  | cons s S ih => cases B with
    | nil => simp at hl
    | cons b B =>
      simp only [gridOf_cons, List.prod_cons] at h
      have h1 := Nat.eq_one_of_mul_eq_one_right h
      have h2 := Nat.eq_one_of_mul_eq_one_left h
      simp only [Pos_cons] at hS
      simp only [gridOf_cons, h1, List.length_cons, List.replicate_succ, ih hS.2 (by simpa using hl) h2]

theorem single_tileShape {S B : List Nat} (hS : Pos S) (hB : Pos B) (hl : B.length = S.length) (h : (gridOf S B).prod = 1) :
    tileShape S B (List.replicate S.length 0) = S ∧ ∀ I, InBox S I → tileIdx B I = List.replicate S.length 0 ∧ locIdx B I = I := by
  induction S generalizing B with
  | nil => simp; intro I hI; cases I <;> simp_all
  | cons s S ih => cases B with
    | nil => simp at hl
    | cons b B =>
      simp only [gridOf_cons, List.prod_cons] at h
      have h1 := Nat.eq_one_of_mul_eq_one_right h
      have h2 := Nat.eq_one_of_mul_eq_one_left h
      simp only [Pos_cons] at hS hB
      obtain ⟨e1, e2⟩ := ih hS.2 hB.2 (by simpa using hl) h2
      have hsb : s ≤ b := by
        have : (s - 1) / b = 0 := by omega
        have := (Nat.div_eq_zero_iff).1 this
        omega
      refine ⟨by simp [List.replicate_succ, e1]; omega, ?_⟩
      intro I hI
      cases I with
      | nil => simp at hI
      | cons i I =>
        simp only [InBox_cons] at hI
        obtain ⟨a, c⟩ := e2 I hI.2
        simp only [tileIdx_cons, locIdx_cons, a, c, List.length_cons, List.replicate_succ, List.cons.injEq, and_true]
        exact ⟨Nat.div_eq_of_lt (by omega), Nat.mod_eq_of_lt (by omega)⟩

namespace Tensor
/-- Facts about a tensor of one tile. -/
theorem WF.single {T : Tensor} (h : T.WF) (h1 : T.ntiles = 1) :
    T.tshapeL 0 = T.shape ∧ ∀ {α : Type} (s : Store α) I, InBox T.shape I → T.get s I = (s (T.id, 0)).data (lin T.shape I) := by
  have hz : T.tindex 0 = List.replicate T.shape.length 0 := by
    rw [Tensor.tindex, unlin_zero, h.grid_length]
  obtain ⟨e1, e2⟩ := single_tileShape h.1 h.2.1 h.2.2 h1
  refine ⟨by simp only [tshapeL, tshape, hz, e1], ?_⟩
  intro α s I hI
  obtain ⟨a, c⟩ := e2 I hI
  have hl : lin T.grid (List.replicate T.shape.length 0) = 0 := by
    rw [← hz, Tensor.lin_tindex (by omega)]
  simp only [get, hOf, oOf, a, c, tshape, e1, hl]
end Tensor

end NNTile
