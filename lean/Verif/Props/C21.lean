import Verif.Model.MaskScalar
import Verif.Lib.Proj
import Verif.Lib.Puts
import Verif.Lib.Seq
import Verif.Lib.Store
import Verif.Lib.Reduce
/-!
# C21 — `mask_scalar`

`mask` has the leading dimensions of `A`; the other `batch_ndim` dimensions of `A` are the batch, and `I.take mask.ndim` is the index of the mask entry
that belongs to element `I`. All theorems hold for any scalar type.
-/
namespace NNTile
variable {α : Type}

/-- The dimensions of `mask` are the leading dimensions of `A`, with the same tiling. -/
structure Tensor.LeadOf (mask A : Tensor) : Prop where
  le : mask.shape.length ≤ A.shape.length
  shape : mask.shape = A.shape.take mask.shape.length
  basetile : mask.basetile = A.basetile.take mask.shape.length

theorem proj_range {l : List Nat} {d : Nat} (h : d ≤ l.length) : proj (List.range d) l = l.take d := by
  apply List.ext_getElem
  · simp [proj, h]
  · intro i h1 h2
    have : i < l.length := by simp only [List.length_take] at h2; omega
    simp [proj, this]

theorem Tensor.LeadOf.proj {mask A : Tensor} (h : mask.LeadOf A) (hA : A.WF) : mask.ProjOf A (List.range mask.shape.length) := by
  refine ⟨fun p hp => by have := h.le; simp only [List.mem_range] at hp; omega, ?_, ?_⟩
  · rw [proj_range h.le]; exact h.shape
  · rw [proj_range (by rw [hA.2.2]; exact h.le)]; exact h.basetile

theorem maskCheck {mask A : Tensor} (hm : mask.WF) (hA : A.WF) (hle : mask.ndim ≤ A.ndim) :
    Check (forCheck mask.ndim (fun i => checkPair A mask i i)) (mask.LeadOf A) := by
  refine (Check.forCheck (fun i hi => checkPair_check hA hm (by omega) hi)).mono ?_
  have key : ∀ {L K : List Nat}, L.length ≤ K.length → ((∀ i, i < L.length → K.getD i 0 = L.getD i 0) ↔ L = K.take L.length) := by
    intro L K hl
    constructor
    · intro h
      apply List.ext_getElem (by simp [hl])
      intro i h1 h2
      have := h i h1
      simpa [h1, show i < K.length by omega] using this.symm
    · intro h i hi
      conv_rhs => rw [h]
      simp [hi]
  simp only [forall₂_and]
  rw [show mask.ndim = mask.shape.length from rfl, key hle]
  rw [← hm.2.2, key (by rw [hm.2.2, hA.2.2]; exact hle), hm.2.2]
  exact ⟨fun ⟨a, b⟩ => ⟨hle, a, b⟩, fun ⟨_, a, b⟩ => ⟨a, b⟩⟩

theorem maskScalar_run {asBool : α → Bool} {m n : Nat} {mask o : Buf α} {w : Nat → α} {x : Nat → α} {val : α} (ho : o.size = m * n)
    (hm : mask.size = m) (hw : ∀ i, i < m → mask.data i = some (w i)) (hx : ∀ i, i < m * n → o.data i = some (x i)) :
    ∃ b', maskScalarKernel asBool m n mask val o = .ok b' ∧ b'.size = o.size ∧
      ∀ i j, i < m → j < n → b'.data (i + m * j) = some (if asBool (w i) then x (i + m * j) else val) := by
  have key := Puts.forN (o := o) (n := m) (f := fun i data => do
      let b ← mask.rd i
      if !asBool b then forN n (fun j data => data.wr (j*m + i) val) data else .ok data)
    (P := fun i c => asBool (w i) = false ∧ ∃ j, j < n ∧ c = i + m * j) (v := fun _ => val)
    (by
      intro i hi
      apply Puts.pre (f := fun b data => if !asBool b then forN n (fun j data => data.wr (j*m + i) val) data else .ok data)
        (Buf.rd_ok (by omega) (hw i hi))
      cases hb : asBool (w i)
      · simp only [hb, Bool.not_false, if_true, true_and]
        apply Puts.forN (f := fun j data => data.wr (j*m + i) val) (P := fun j c => c = i + m * j)
        · intro j hj
          apply Puts.step
          · rw [ho]; exact cell2_lt hi hj
          · intro d hd he
            rw [show j * m + i = i + m * j by ring, Buf.wr_put hd]
        · rintro j j' hjj hj' c rfl h'
          have := (cell2_inj hi hi h').2
          omega
      · intro d hd _
        exact ⟨d, by simp [hb], hd, by simp, fun _ _ => rfl⟩)
    (by
      rintro i i' hii hi' c ⟨-, j, hj, rfl⟩ ⟨-, j', hj', h'⟩
      have := (cell2_inj (by omega) hi' h').1
      omega)
  obtain ⟨b', e1, e2, e3, e4⟩ := key.run
  refine ⟨b', e1, e2, ?_⟩
  intro i j hi hj
  cases hb : asBool (w i)
  · rw [e3 _ ⟨i, hi, hb, j, hj, rfl⟩]; simp
  · rw [e4, hx _ (cell2_lt hi hj)]
    · simp
    · rintro ⟨i', hi', hb', j', hj', h'⟩
      have := (cell2_inj hi hi' h').1
      subst this
      rw [hb] at hb'; cases hb'

/-- Elements with a false mask entry get the value, in all batches, all others keep theirs, bit by bit. -/
theorem C21_mask_scalar {mask A : Tensor} {s : Store α} (asBool : α → Bool) (hm : mask.Ready s) (hA : A.Ready s) (hid : mask.id ≠ A.id)
    (h : mask.LeadOf A) (val : α) (w x : List Nat → α) (hw : mask.Holds s w) (hx : A.Holds s x) :
    Computes (maskScalarAsync asBool mask val A (A.ndim - mask.ndim)) s A (fun I => if asBool (w (I.take mask.ndim)) then x I else val) := by
  have hc := (maskCheck hm.1 hA.1 h.le).ok h
  have hP := h.proj hA.1
  have hle := h.le
  simp only [maskScalarAsync]
  rw [throwIf_neg (by omega), M.bind_ok, hc, M.bind_ok]
  have htk : ∀ t, InBox A.grid t → proj (List.range mask.shape.length) t = t.take mask.ndim := fun t ht =>
    proj_range (by rw [ht.length, hA.1.grid_length]; exact hle)
  refine computes_tile hA (fun t => submitMaskScalar asBool ((A.tshape t).take mask.ndim).prod ((A.tshape t).drop mask.ndim).prod
    (mask.id, lin mask.grid (t.take mask.ndim)) val (A.id, lin A.grid t)) ?_ _ (fun t ht => ⟨rfl, by simp [submitMaskScalar, task1, hid]⟩) ?_
  · intro t ht
    have hin := hP.tile_inBox hA.1 ht
    rw [htk t ht] at hin
    rw [Tensor.handleL_ok (lin_lt ht), M.bind_ok, Tensor.tindex_lin ht, vslice, if_pos (by rw [ht.length, hA.1.grid_length]; simpa [Tensor.ndim] using hle), M.bind_ok,
      List.drop_zero, Tensor.handleAt_ok hin, M.bind_ok, Tensor.tshapeL_lin ht]
  · intro t ht
    have hSl := hA.1.tshape_length ht
    have hsz := hA.2.size ht
    have htS : proj (List.range mask.shape.length) (A.tshape t) = (A.tshape t).take mask.ndim := proj_range (by rw [hSl]; exact hle)
    have hz := hP.size hA.1 hm.2 ht
    rw [htk t ht, htS] at hz
    rw [← prod_take_drop mask.ndim] at hsz
    obtain ⟨b', e1, e2, e3⟩ := maskScalar_run (asBool := asBool) (val := val) (o := s (A.id, lin A.grid t)) hsz hz
      (w := fun i => w (globIdx mask.basetile (t.take mask.ndim) (unlin ((A.tshape t).take mask.ndim) i)))
      (x := fun i => x (globIdx A.basetile t (unlin (A.tshape t) i)))
      (by
        intro i hi
        have hin := hP.tile_inBox hA.1 ht
        have hts := hP.tshape hA.1 ht
        rw [htk t ht] at hin hts
        rw [htS] at hts
        have := Tensor.Holds.same rfl rfl hm.1 hw hin (l := unlin ((A.tshape t).take mask.ndim) i)
          (by rw [hts]; exact unlin_inBox ((hA.1.tshape_pos ht).take _) i)
        rwa [hts, lin_unlin hi] at this)
      (by
        intro i hi
        rw [prod_take_drop] at hi
        have := Tensor.Holds.same rfl rfl hA.1 hx ht (unlin_inBox (hA.1.tshape_pos ht) i)
        rwa [lin_unlin hi] at this)
    refine ⟨b', e1, e2, ?_⟩
    intro l hl
    have hd := lin_take_drop mask.ndim hl.length
    have hltk : InBox ((A.tshape t).take mask.ndim) (l.take mask.ndim) := hl.take _
    have := e3 _ _ (lin_lt hltk) (lin_lt (hl.drop mask.ndim))
    rw [← hd, unlin_lin hl, unlin_lin hltk] at this
    rw [this, h.basetile, show mask.shape.length = mask.ndim from rfl, globIdx_take]

/-- Applying it a second time changes nothing. -/
theorem C21_idempotent {mask A : Tensor} {s : Store α} (asBool : α → Bool) (hm : mask.Ready s) (hA : A.Ready s) (hid : mask.id ≠ A.id)
    (h : mask.LeadOf A) (val : α) (w x : List Nat → α) (hw : mask.Holds s w) (hx : A.Holds s x) :
    ∃ ts s1 s2, maskScalarAsync asBool mask val A (A.ndim - mask.ndim) = .ok ts ∧ runAll1 ts s = .ok s1 ∧ runAll1 ts s1 = .ok s2 ∧
      ∀ I, InBox A.shape I → A.get s2 I = A.get s1 I := by
  obtain ⟨ts, s1, e1, e2, e3, e4, e5⟩ := C21_mask_scalar asBool hm hA hid h val w x hw hx
  obtain ⟨ts', s2, f1, f2, f3, -⟩ := C21_mask_scalar asBool (e4.ready hm (by simpa using hid)) e5 hid h val w _ (e4.holds hw (by simpa using hid)) e3
  rw [e1] at f1
  cases f1
  refine ⟨ts, s1, s2, e1, e2, f2, fun I hI => ?_⟩
  rw [f3 I hI, e3 I hI]
  show some (if _ then (if _ then x I else val) else val) = some (if _ then x I else val)
  split <;> rfl

/-- Arguments that do not fit are rejected, provided that `batch_ndim >= 0`. -/
theorem C21_rejects_partial {mask A : Tensor} (asBool : α → Bool) (hm : mask.WF) (hA : A.WF) (val : α) (batch_ndim : Int) (hb : 0 ≤ batch_ndim)
    (h : ¬ (batch_ndim = A.ndim - mask.ndim ∧ mask.LeadOf A)) : Throws (maskScalarAsync asBool mask val A batch_ndim) := by
  simp only [maskScalarAsync]
  refine throws_step fun h1 => ?_
  refine (maskCheck hm hA (by omega)).throws fun h2 => ?_
  exact h ⟨by omega, h2⟩

/-- The full claim (without `batch_ndim >= 0`) fails: with `batch_ndim = -1` and a mask with one dimension more than `A` (and otherwise equal) the check of
dimensions passes and `A.shape` is read out of its bounds. -/
theorem C21_rejects_refuted : ∃ mask A : Tensor, mask.WF ∧ A.WF ∧ ∀ (asBool : α → Bool) (val : α),
    ¬ Throws (maskScalarAsync asBool mask val A (-1)) ∧ IsUB (maskScalarAsync asBool mask val A (-1)) := by
  refine ⟨⟨0, [3, 2], [2, 2]⟩, ⟨1, [3], [2]⟩, by decide, by decide, fun asBool val => ?_⟩
  have e : maskScalarAsync asBool ⟨0, [3, 2], [2, 2]⟩ val ⟨1, [3], [2]⟩ (-1) = .error (.ub "vector access out of bounds") := by
    simp [maskScalarAsync, throwIf, Tensor.ndim, checkPair, vget, forCheck, forN, M.bind_ok]
  rw [e]
  exact ⟨by rintro ⟨m, hm⟩; simp at hm, ⟨_, rfl⟩⟩

/-- The hypotheses are met by a `4×6×3` tensor in `2×4×2` tiles with a `4×6` mask that has true and false entries. -/
example : ∃ (mask A : Tensor) (s : Store Int) (w x : List Nat → Int), A.ntiles = 8 ∧ mask.Ready s ∧ A.Ready s ∧ mask.id ≠ A.id ∧
    mask.LeadOf A ∧ mask.Holds s w ∧ A.Holds s x ∧ (A.ndim : Int) - mask.ndim = 1 ∧ w [0,0] = 1 ∧ w [1,0] = 0 := by
  obtain ⟨s, h1, h2⟩ := exists_store2 (A := ⟨0, [4,6], [2,4]⟩) (B := ⟨1, [4,6,3], [2,4,2]⟩)
    (fun I => if I.headD 0 = 0 then (1 : Int) else 0) (fun I => (lin [4,6,3] I : Int)) (by decide) (by decide) (by decide)
  exact ⟨_, _, s, _, _, by decide, h1.1, h2.1, by decide, ⟨by decide, by decide, by decide⟩, h1.2, h2.2, by decide, rfl, rfl⟩

end NNTile
