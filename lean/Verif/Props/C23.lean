import Verif.Lib.CrossEntropy
import Verif.Lib.Seq
import Verif.Lib.Store
import Mathlib.Analysis.SpecialFunctions.ExpDeriv
import Mathlib.Analysis.SpecialFunctions.Log.Deriv
import Mathlib.Analysis.Calculus.Deriv.Add
import Mathlib.Analysis.Calculus.Deriv.Mul
/-!
# C23 — cross entropy: `total_sum_accum`, `subtract_indexed_outputs`

`LabelFit`, `LabelsOk` are defined in `Verif/Spec/CrossEntropy.lean`. The index of an element of the logits is the class followed by the index of the label.
-/
namespace NNTile
open Finset

/-- `subtract_indexed_outputs` subtracts `val` from exactly the elements selected by the labels (bit by bit, for any arithmetic). -/
theorem C23_subtract_indexed_outputs {α : Type} [FP α] {labels dst : Tensor} {n : Nat} {s : Store α} (asIdx : α → Int) (hl : labels.Ready s) (hd : dst.Ready s)
    (hid : labels.id ≠ dst.id) (h : LabelFit labels dst n) (val : α) (w x : List Nat → α) (hw : labels.Holds s w) (hx : dst.Holds s x)
    (hok : LabelsOk labels n asIdx w) :
    Computes (subtractIndexedAsync asIdx val labels dst) s dst (fun I => if asIdx (w I.tail) = I.headD 0 then x I - val else x I) := by
  have hbl := hd.1.2.2
  have hnt := h.ntiles hd.1
  have hsh := h.shape
  have hbt := h.basetile
  simp only [subtractIndexedAsync]
  rw [throwIf_neg (by simp [Tensor.ndim, hsh]), M.bind_ok]
  rw [(Check.forCheck (fun i hi => checkPair_check hl.1 hd.1 (i := i) (j := i + 1) hi (by simp only [Tensor.ndim, hsh, List.length_cons] at *; omega))).ok
    (by intro i hi; rw [hsh, hbt]; exact ⟨rfl, rfl⟩), M.bind_ok, vget_ok (by rw [hsh]; simp), M.bind_ok, vget_ok (by rw [hbt]; simp), M.bind_ok,
    throwIf_neg (by rw [hsh, hbt]; simp), M.bind_ok, hsh]
  simp only [List.getD_cons_zero]
  refine computes_tile hd (fun t => submitSubtractIndexed asIdx n (labels.tshape t.tail).prod val (labels.id, lin dst.grid t) (dst.id, lin dst.grid t)) ?_ _ ?_ ?_
  · intro t ht
    obtain ⟨u, rfl, hu⟩ := h.tile_eq hd.1 ht
    have hlt : lin labels.grid u < labels.ntiles := lin_lt hu
    rw [h.lin_tile hd.1, Tensor.handleL_ok hlt, M.bind_ok, Tensor.handleL_ok (by rw [hnt]; exact hlt), M.bind_ok, Tensor.tshapeL, Tensor.tindex_lin hu]
    rfl
  · intro t ht
    exact ⟨rfl, by simp [submitSubtractIndexed, task1, hid]⟩
  · intro t ht
    have hsz := hd.2.size ht
    obtain ⟨u, rfl, hu⟩ := h.tile_eq hd.1 ht
    have hts := h.tshape hd.1 u
    rw [hts, List.prod_cons] at hsz
    rw [h.lin_tile hd.1] at hsz ⊢
    have hP := hl.1.tshape_pos hu
    obtain ⟨b', e1, e2, e3⟩ := subtractIndexed_run (asIdx := asIdx) (n := n) (m := (labels.tshape u).prod) (val := val) (o := s (dst.id, lin labels.grid u))
      (labels := s (labels.id, lin labels.grid u)) (w := fun j => w (globIdx labels.basetile u (unlin (labels.tshape u) j)))
      (x := fun j => x (globIdx dst.basetile (0 :: u) (unlin (dst.tshape (0 :: u)) j))) hsz
      (by
        intro j hj
        have := Tensor.Holds.same rfl rfl hd.1 hx ht (unlin_inBox (hd.1.tshape_pos ht) j)
        rwa [lin_unlin (by rw [hts, List.prod_cons]; exact hj), h.lin_tile hd.1] at this)
      (hl.2.size hu)
      (by
        intro j hj
        have := Tensor.Holds.same rfl rfl hl.1 hw hu (unlin_inBox hP j)
        rwa [lin_unlin hj] at this)
      (fun j hj => hok _ (hl.1.glob hu (unlin_inBox hP j)).1)
    refine ⟨b', e1, e2, ?_⟩
    intro l hl'
    have hl'' := hl'
    rw [hts] at hl'
    cases l with
    | nil => exact absurd hl' (by simp [InBox])
    | cons c l =>
      obtain ⟨h1, h2⟩ := hl'
      have := e3 c (lin (labels.tshape u) l) h1 (lin_lt h2)
      rw [unlin_lin h2, show c + n * lin (labels.tshape u) l = lin (dst.tshape (0 :: u)) (c :: l) by rw [hts]; rfl, unlin_lin hl''] at this
      rw [this, h.glob hd.1]
      rfl

/-- What one task of `total_sum_accum` adds. -/
private theorem tsa_adds {lse src labels val : Tensor} {n : Nat} {s : Store ℝ} (asIdx : ℝ → Int) (he : lse.Ready s) (hs : src.Ready s) (hl : labels.Ready s)
    (h : LabelFit labels src n) (h2 : lse.shape = labels.shape ∧ lse.basetile = labels.basetile)
    (alpha : ℝ) (e x w : List Nat → ℝ) (hle : lse.Holds s e) (hx : src.Holds s x) (hw : labels.Holds s w)
    (hok : LabelsOk labels n asIdx w) {t : List Nat} (ht : InBox labels.grid t) :
    AddsTo (SumRep 1) s (submitTotalSumAccum asIdx alpha n (labels.tshape t).prod (lse.id, lin labels.grid t) (src.id, lin labels.grid t)
      (labels.id, lin labels.grid t) (val.id, 0))
      (fun _ => alpha * ∑ l ∈ box (labels.tshape t), (e (globIdx labels.basetile t l) -
        x ((asIdx (w (globIdx labels.basetile t l))).toNat :: globIdx labels.basetile t l))) := by
  rintro b g ⟨hb1, hb2⟩
  have hP := hl.1.tshape_pos ht
  have hts := h.tshape hs.1 t
  have htx := h.inBox hs.1 ht
  have hg2 : lse.grid = labels.grid := by rw [Tensor.grid, h2.1, h2.2]; rfl
  have ht2 : lse.tshape t = labels.tshape t := by rw [Tensor.tshape, h2.1, h2.2]; rfl
  have := totalSumAccum_run (asIdx := asIdx) (n := n) (m := (labels.tshape t).prod) (alpha := alpha) (o := b) (lse := s (lse.id, lin labels.grid t))
    (src := s (src.id, lin labels.grid t)) (labels := s (labels.id, lin labels.grid t)) (y := g 0)
    (e := fun j => e (globIdx lse.basetile t (unlin (lse.tshape t) j)))
    (w := fun j => w (globIdx labels.basetile t (unlin (labels.tshape t) j)))
    (x := fun j => x (globIdx src.basetile (0 :: t) (unlin (src.tshape (0 :: t)) j))) hb1 (hb2 0 (by omega))
    (by
      have := hs.2.size htx
      rw [h.lin_tile hs.1, hts] at this
      simpa using this)
    (by
      intro j hj
      have := Tensor.Holds.same rfl rfl hs.1 hx htx (unlin_inBox (hs.1.tshape_pos htx) j)
      rwa [lin_unlin (by rw [hts, List.prod_cons]; exact hj), h.lin_tile hs.1] at this)
    (hl.2.size ht)
    (by
      intro j hj
      have := Tensor.Holds.same rfl rfl hl.1 hw ht (unlin_inBox hP j)
      rwa [lin_unlin hj] at this)
    (by rw [← hg2, he.2.size (by rw [hg2]; exact ht), ht2])
    (by
      intro j hj
      have := Tensor.Holds.same rfl rfl he.1 hle (t := t) (by rw [hg2]; exact ht) (unlin_inBox (by rw [ht2]; exact hP) j)
      rwa [lin_unlin (by rw [ht2]; exact hj), hg2] at this)
    (fun j hj => hok _ (hl.1.glob ht (unlin_inBox hP j)).1)
  refine ⟨_, this, hb1, fun j hj => ?_⟩
  have : j = 0 := by omega
  subst this
  simp only [Buf.put, if_true, Pi.add_apply]
  rw [sum_box hP]
  congr 3
  refine sum_congr rfl (fun k hk => ?_)
  rw [mem_range] at hk
  have hlab := hok _ (hl.1.glob ht (unlin_inBox hP k)).1
  have hin : InBox (src.tshape (0 :: t)) ((asIdx (w (globIdx labels.basetile t (unlin (labels.tshape t) k)))).toNat :: unlin (labels.tshape t) k) := by
    rw [hts]; exact ⟨by omega, unlin_inBox hP k⟩
  rw [show (asIdx (w (globIdx labels.basetile t (unlin (labels.tshape t) k)))).toNat + n * k =
    lin (src.tshape (0 :: t)) ((asIdx (w (globIdx labels.basetile t (unlin (labels.tshape t) k)))).toNat :: unlin (labels.tshape t) k) by
      rw [hts]; simp [lin, lin_unlin hk], unlin_lin hin, h.glob hs.1, h2.2, ht2]

private theorem foldBuf_adds {G : Type} [AddCommMonoid G] {Rep : Buf ℝ → G → Prop} {s : Store ℝ} {L : List (Task1 ℝ)} {ws : List G} (hm : ∀ t ∈ L, t.mode ≠ .W)
    (h : List.Forall₂ (AddsTo Rep s) L ws) {b : Buf ℝ} {g : G} (hb : Rep b g) : ∃ b', foldBuf s L b = .ok b' ∧ Rep b' (g + ws.sum) := by
  induction h generalizing b g with
  | nil => exact ⟨b, rfl, by simpa using hb⟩
  | cons h1 h2 ih =>
    obtain ⟨c, e, hc⟩ := h1 hb
    obtain ⟨b', e', hb'⟩ := ih (fun t ht => hm t (by simp [ht])) hc
    refine ⟨b', ?_, by rwa [List.sum_cons, ← add_assoc]⟩
    rw [foldBuf, Task1.inp, if_neg (hm _ (by simp)), e, M.bind_ok, e']

/-- `total_sum_accum` adds `alpha` times the sum of `logsumexp - x[label]` over all labels to the scalar, in whatever order the runtime executes its
(commuting) tasks. -/
theorem C23_total_sum_accum {lse src labels val : Tensor} {n : Nat} {s : Store ℝ} (asIdx : ℝ → Int) (he : lse.Ready s) (hs : src.Ready s) (hl : labels.Ready s)
    (hv : val.Ready s) (hid1 : lse.id ≠ val.id) (hid2 : src.id ≠ val.id) (hid3 : labels.id ≠ val.id)
    (h : LabelFit labels src n) (h2 : lse.shape = labels.shape ∧ lse.basetile = labels.basetile) (h3 : val.shape = [])
    (alpha : ℝ) (e x w : List Nat → ℝ) (y : ℝ) (hle : lse.Holds s e) (hx : src.Holds s x) (hw : labels.Holds s w) (hy : val.Holds s (fun _ => y))
    (hok : LabelsOk labels n asIdx w) :
    ∃ ts, totalSumAccumAsync asIdx alpha lse src labels val = .ok ts ∧ ∀ ts', ts'.Perm ts →
      Computes (.ok ts') s val (fun _ => y + alpha * ∑ J ∈ box labels.shape, (e J - x ((asIdx (w J)).toNat :: J))) := by
  have hsh := h.shape
  have hbt := h.basetile
  have hbl := hs.1.2.2
  have hvb : val.basetile = [] := List.eq_nil_of_length_eq_zero (by rw [hv.1.2.2, h3]; rfl)
  have hvg : val.grid = [] := by rw [Tensor.grid, h3, hvb]; rfl
  have hvn : val.ntiles = 1 := by rw [Tensor.ntiles, hvg]; rfl
  have hg2 : lse.grid = labels.grid := by rw [Tensor.grid, h2.1, h2.2]; rfl
  have hn2 : lse.ntiles = labels.ntiles := by rw [Tensor.ntiles, hg2]; rfl
  have hnt := h.ntiles hs.1
  let task : Nat → Task1 ℝ := fun i => submitTotalSumAccum asIdx alpha n (labels.tshape (labels.tindex i)).prod (lse.id, i) (src.id, i) (labels.id, i) (val.id, 0)
  refine ⟨(List.range labels.ntiles).flatMap (fun i => [task i]), ?_, ?_⟩
  · simp only [totalSumAccumAsync]
    rw [throwIf_neg (by simp [Tensor.ndim, h2.1]), M.bind_ok, throwIf_neg (by simp [Tensor.ndim, h2.1, hsh]), M.bind_ok,
      throwIf_neg (by simp [Tensor.ndim, h3]), M.bind_ok]
    rw [(Check.forCheck (fun i hi => (checkPair_check he.1 hl.1 (i := i) (j := i) (by simpa [Tensor.ndim, h2.1] using hi) hi).bind (fun _ =>
      checkPair_check hl.1 hs.1 (i := i) (j := i + 1) hi (by simp only [Tensor.ndim, hsh, List.length_cons] at *; omega)))).ok
      (by intro i hi; rw [hsh, hbt, h2.1, h2.2]; exact ⟨⟨rfl, rfl⟩, rfl, rfl⟩), M.bind_ok, vget_ok (by rw [hbt]; simp), M.bind_ok, vget_ok (by rw [hsh]; simp), M.bind_ok,
      throwIf_neg (by rw [hsh, hbt]; simp), M.bind_ok, hsh, Tensor.handleL_ok (by omega), M.bind_ok]
    simp only [List.getD_cons_zero]
    apply forTasks_ok
    intro i hi
    rw [Tensor.handleL_ok (by omega), M.bind_ok, Tensor.handleL_ok hi, M.bind_ok, Tensor.handleL_ok (by omega), M.bind_ok]
    have : lse.tshapeL i = labels.tshape (labels.tindex i) := by
      rw [Tensor.tshapeL, Tensor.tindex, hg2, Tensor.tshape, h2.1, h2.2]; rfl
    rw [this]
  · intro ts' hperm
    have hmem : ∀ u ∈ ts', ∃ i, i < labels.ntiles ∧ u = task i := by
      intro u hu
      have := hperm.mem_iff.1 hu
      simp only [List.mem_flatMap, List.mem_range, List.mem_singleton] at this
      exact this
    rw [← List.map_eq_flatMap] at hperm
    have hadds : List.Forall₂ (AddsTo (SumRep 1) s) ((List.range labels.ntiles).map task) ((List.range labels.ntiles).map (fun i => (fun _ : Nat =>
        alpha * ∑ l ∈ box (labels.tshape (labels.tindex i)), (e (globIdx labels.basetile (labels.tindex i) l) -
        x ((asIdx (w (globIdx labels.basetile (labels.tindex i) l))).toNat :: globIdx labels.basetile (labels.tindex i) l))))) := by
      rw [List.forall₂_map_left_iff, List.forall₂_map_right_iff, List.forall₂_same]
      intro i hi
      have hlin := Tensor.lin_tindex (List.mem_range.1 hi)
      intro b g hb
      have := tsa_adds (val := val) asIdx he hs hl h h2 alpha e x w hle hx hw hok (labels.tindex_inBox i) hb
      rw [hlin] at this
      exact this
    obtain ⟨ws, w1, w2⟩ := List.perm_comp_forall₂ hperm hadds
    obtain ⟨s', r1, r2, r3, r4⟩ := run_tensor hv.1 hv.2 (ts := ts')
      (fun _ => some (y + alpha * ∑ J ∈ box labels.shape, (e J - x ((asIdx (w J)).toNat :: J)))) (by
        intro u hu
        obtain ⟨i, hi, rfl⟩ := hmem u hu
        exact ⟨0, by omega, rfl⟩) (by
        intro u hu
        obtain ⟨i, hi, rfl⟩ := hmem u hu
        simp [task, submitTotalSumAccum, hid1, hid2, hid3]) (by
        intro t ht
        have ht0 : t = [] := List.eq_nil_of_length_eq_zero (by rw [ht.length, hvg]; rfl)
        subst ht0
        rw [hvg]
        simp only [lin]
        rw [List.filter_eq_self.2 (by
          intro u hu
          obtain ⟨i, hi, rfl⟩ := hmem u hu
          simp [task, submitTotalSumAccum])]
        have hvsz := hv.2.size (t := []) (by rw [hvg]; trivial)
        have hvd := Tensor.Holds.same (t := []) (l := []) rfl rfl hv.1 hy (by rw [hvg]; trivial) (by rw [Tensor.tshape, h3, hvb]; trivial)
        have hvs : val.tshape [] = [] := by rw [Tensor.tshape, h3, hvb]; rfl
        rw [hvg, hvs] at hvsz hvd
        simp only [lin, List.prod_nil] at hvsz hvd
        obtain ⟨b', e1, e2⟩ := foldBuf_adds (Rep := SumRep 1) (s := s) (L := ts') (ws := ws) (by
          intro u hu
          obtain ⟨i, hi, rfl⟩ := hmem u hu
          simp [task, submitTotalSumAccum]) w1 (b := s (val.id, 0)) (g := fun _ => y) ⟨hvsz, fun j hj => by
            have : j = 0 := by omega
            subst this; exact hvd⟩
        refine ⟨b', e1, by rw [e2.1, hvsz], ?_⟩
        intro l hl'
        have hl0 : l = [] := List.eq_nil_of_length_eq_zero (by rw [hl'.length, hvs]; rfl)
        subst hl0
        rw [hvs]
        simp only [lin]
        rw [e2.2 0 (by omega), w2.sum_eq, list_sum_range]
        simp only [Pi.add_apply, Finset.sum_apply]
        rw [← mul_sum, sum_box_tiles hl.1.1 hl.1.2.1 hl.1.2.2, ← Tensor.grid, sum_box labels.grid_pos]
        rfl)
    exact ⟨ts', s', rfl, r1, r2, r3, hv.1, r4⟩

/-- Arguments that do not fit are rejected. -/
theorem C23_rejects {α : Type} [FP α] {lse src labels val dst : Tensor} (asIdx : α → Int) (he : lse.WF) (hs : src.WF) (hl : labels.WF) (hd : dst.WF)
    (alpha v : α) :
    (¬ (∃ n, LabelFit labels src n ∧ lse.shape = labels.shape ∧ lse.basetile = labels.basetile ∧ val.shape = []) →
      Throws (totalSumAccumAsync asIdx alpha lse src labels val)) ∧
    (¬ (∃ n, LabelFit labels dst n) → Throws (subtractIndexedAsync asIdx v labels dst)) := by
  have ext : ∀ {A B : List Nat}, A.length = B.length → (∀ i, i < A.length → A.getD i 0 = B.getD i 0) → A = B := by
    intro A B hlen hi
    apply List.ext_getElem hlen
    intro i h1 h2
    have := hi i h1
    rwa [getD_eq_getElem h1, getD_eq_getElem h2] at this
  have fit : ∀ {x : Tensor}, x.WF → labels.ndim + 1 = x.ndim →
      (∀ i, i < labels.ndim → labels.shape.getD i 0 = x.shape.getD (i+1) 0 ∧ labels.basetile.getD i 0 = x.basetile.getD (i+1) 0) →
      x.basetile.getD 0 0 = x.shape.getD 0 0 → LabelFit labels x (x.shape.getD 0 0) := by
    intro x hx h1 h2 h3
    have hl2 := hl.2.2
    have hx2 := hx.2.2
    simp only [Tensor.ndim] at *
    cases hxs : x.shape with
    | nil => rw [hxs] at h1; simp at h1
    | cons n S =>
      cases hxb : x.basetile with
      | nil => rw [hxs, hxb] at hx2; simp at hx2
      | cons b B =>
        simp only [hxs, hxb, List.getD_cons_zero, List.getD_cons_succ, List.length_cons, Nat.add_right_cancel_iff] at h1 h2 h3 hx2 ⊢
        refine ⟨?_, ?_⟩
        · rw [hxs, ext h1 (fun i hi => (h2 i hi).1)]
        · rw [hxb, h3, ext (hl2.trans (h1.trans hx2.symm)) (fun i hi => (h2 i (by omega)).2)]
  constructor
  · intro h
    simp only [totalSumAccumAsync]
    refine throws_step fun h1 => throws_step fun h2 => throws_step fun h3 => ?_
    simp only [ne_eq, not_not] at h1 h2 h3
    refine (Check.forCheck (fun i hi => (checkPair_check he hl (i := i) (j := i) (by omega) hi).bind (fun _ =>
      checkPair_check hl hs (i := i) (j := i + 1) hi (by omega)))).throws_step fun h4 => ?_
    rw [vget_ok (by rw [hs.2.2]; simp only [Tensor.ndim] at h2; omega), M.bind_ok, vget_ok (by simp only [Tensor.ndim] at h2; omega), M.bind_ok]
    refine throws_pos fun h5 => h ⟨_, fit hs (by omega) (fun i hi => (h4 i hi).2) h5, ?_, ?_, List.eq_nil_of_length_eq_zero h3⟩
    · exact ext h1 (fun i hi => (h4 i (by rw [← h1]; exact hi)).1.1)
    · exact ext (by rw [he.2.2, hl.2.2]; exact h1) (fun i hi => (h4 i (by rw [← h1]; rw [he.2.2] at hi; exact hi)).1.2)
  · intro h
    simp only [subtractIndexedAsync]
    refine throws_step fun h1 => ?_
    simp only [ne_eq, not_not] at h1
    refine (Check.forCheck (fun i hi => checkPair_check hl hd (i := i) (j := i + 1) hi (by omega))).throws_step fun h4 => ?_
    rw [vget_ok (by simp only [Tensor.ndim] at h1; omega), M.bind_ok, vget_ok (by rw [hd.2.2]; simp only [Tensor.ndim] at h1; omega), M.bind_ok]
    exact throws_pos fun h5 => h ⟨_, fit hd h1 h4 h5.symm⟩

/-- The value that `total_sum_accum` adds, as a function of the logits, if `logsumexp` holds the logarithms of the sums of exponentials of the logits. -/
noncomputable def crossEntropy (S : List Nat) (n : Nat) (label : List Nat → Nat) (alpha : ℝ) (x : List Nat → ℝ) : ℝ :=
  alpha * ∑ J ∈ box S, (Real.log (∑ c ∈ range n, Real.exp (x (c :: J))) - x (label J :: J))

/-- Its derivative with respect to the logit `k` of label `J` is `alpha` times the softmax, minus `alpha` if `k` is the label: what
`subtract_indexed_outputs` with `val = alpha` makes of `alpha * softmax`. -/
theorem C23_gradient (S : List Nat) (n : Nat) (label : List Nat → Nat) (alpha : ℝ) (x : List Nat → ℝ) (k : Nat) (J : List Nat) (hJ : InBox S J)
    (hk : k < n) :
    HasDerivAt (fun t => crossEntropy S n label alpha (Function.update x (k :: J) t))
      (if label J = k then alpha * (Real.exp (x (k :: J)) / ∑ c ∈ range n, Real.exp (x (c :: J))) - alpha
        else alpha * (Real.exp (x (k :: J)) / ∑ c ∈ range n, Real.exp (x (c :: J)))) (x (k :: J)) := by
  have hcomp : ∀ I : List Nat, HasDerivAt (fun t => Function.update x (k :: J) t I) (if I = k :: J then 1 else 0) (x (k :: J)) := by
    intro I
    by_cases hI : I = k :: J
    · subst hI
      simp only [Function.update_self, if_true]
      exact hasDerivAt_id _
    · simp only [Function.update_of_ne hI, hI, if_false]
      exact hasDerivAt_const _ _
  have hterm : ∀ K ∈ box S, HasDerivAt (fun t => Real.log (∑ c ∈ range n, Real.exp (Function.update x (k :: J) t (c :: K))) -
      Function.update x (k :: J) t (label K :: K))
      (if K = J then (Real.exp (x (k :: J)) / ∑ c ∈ range n, Real.exp (x (c :: J))) - (if label J = k then 1 else 0) else 0) (x (k :: J)) := by
    intro K _
    have h1 : HasDerivAt (fun t => ∑ c ∈ range n, Real.exp (Function.update x (k :: J) t (c :: K)))
        (∑ c ∈ range n, Real.exp (x (c :: K)) * (if c :: K = k :: J then 1 else 0)) (x (k :: J)) := by
      refine (HasDerivAt.fun_sum (fun c _ => ?_))
      have := (hcomp (c :: K)).exp
      simpa using this
    have hpos : 0 < ∑ c ∈ range n, Real.exp (x (c :: K)) :=
      sum_pos (fun c _ => Real.exp_pos _) ⟨k, mem_range.2 hk⟩
    have h2 := (h1.log (by simpa using hpos.ne')).sub (hcomp (label K :: K))
    refine h2.congr_deriv ?_
    symm
    simp only [Function.update_eq_self, List.cons.injEq]
    by_cases hKJ : K = J
    · subst hKJ
      simp only [and_true, if_true, mul_ite, mul_one, mul_zero]
      rw [sum_ite_eq' (range n) k, if_pos (mem_range.2 hk)]
    · simp [hKJ]
  have := (HasDerivAt.fun_sum hterm).const_mul alpha
  refine this.congr_deriv ?_
  symm
  rw [sum_ite_eq' (box S) J, if_pos (mem_box.2 hJ)]
  split <;> ring

/-- The hypotheses are met by `3×5×4` logits in `3×2×4` tiles. -/
example : ∃ (lse src labels val : Tensor) (s : Store ℝ) (e x w : List Nat → ℝ), labels.ntiles = 3 ∧ lse.Ready s ∧ src.Ready s ∧ labels.Ready s ∧ val.Ready s ∧
    lse.id ≠ val.id ∧ src.id ≠ val.id ∧ labels.id ≠ val.id ∧ labels.id ≠ src.id ∧ LabelFit labels src 3 ∧ (lse.shape = labels.shape ∧ lse.basetile = labels.basetile) ∧
    val.shape = [] ∧ lse.Holds s e ∧ src.Holds s x ∧ labels.Holds s w ∧ val.Holds s (fun _ => 1) ∧ LabelsOk labels 3 (fun r : ℝ => ⌊r⌋) w ∧
    w [0, 0] ≠ w [1, 0] := by
  have h := storeOf_spec (α := ℝ) [(⟨0, [5,4], [2,4]⟩, fun I => (lin [5,4] I : ℝ)), (⟨1, [3,5,4], [3,2,4]⟩, fun I => (lin [3,5,4] I : ℝ)),
    (⟨2, [5,4], [2,4]⟩, fun I => if I.headD 0 = 0 then (1:ℝ) else 2), (⟨3, [], []⟩, fun _ => 1)] (by decide) (by decide)
  have h0 := h _ (List.mem_cons_self)
  have h1 := h _ (List.mem_cons_of_mem _ (List.mem_cons_self))
  have h2 := h _ (List.mem_cons_of_mem _ (List.mem_cons_of_mem _ (List.mem_cons_self)))
  have h3 := h _ (List.mem_cons_of_mem _ (List.mem_cons_of_mem _ (List.mem_cons_of_mem _ (List.mem_cons_self))))
  refine ⟨_, _, _, _, _, _, _, _, by decide, h0.1, h1.1, h2.1, h3.1, by decide, by decide, by decide, by decide, ⟨rfl, rfl⟩, ⟨rfl, rfl⟩, rfl, h0.2, h1.2, h2.2,
    h3.2, ?_, by simp⟩
  intro J _
  simp only
  split <;> norm_num

end NNTile
