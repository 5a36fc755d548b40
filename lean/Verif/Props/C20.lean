import Verif.Lib.Softmax
import Verif.Spec.Softmax
import Verif.Props.C19
/-!
# C20 — `softmax`, `softmax_inplace`, `logsumexp`

The first theorems hold for every number type (`FP α`), so they are bit-exact; the others are about exact arithmetic with the mask `-inf`.
`I.eraseIdx a` is the index without its entry number `a`, `0 :: J` and `1 :: J` are the maximum and the sum in the tensor of pairs,
`softmaxSpec` is in `Verif/Spec/Softmax.lean`.
-/
namespace NNTile
open Finset

section anyScalar
variable {α : Type} [FP α]

/-- `softmax` for any contents of the tensor of pairs, whatever was in `dst` before. -/
theorem C20_softmax_bits {mse src dst : Tensor} {a : Nat} {s : Store α} (hm : mse.Ready s) (hs : src.Ready s) (hd : dst.Ready s) (hid : mse.id ≠ dst.id)
    (hid2 : src.id ≠ dst.id) (h : mse.MseOf dst a) (hsh : src.shape = dst.shape) (hbt : src.basetile = dst.basetile) (alpha : α)
    (w x : List Nat → α) (hw : mse.Holds s w) (hx : src.Holds s x) :
    Computes (softmaxAsync mse src alpha dst a) s dst
      (fun I => if FP.isInf (x I) then 0 else alpha * FP.exp (x I - w (0 :: I.eraseIdx a)) / w (1 :: I.eraseIdx a)) := by
  have hn := h.ndim_eq hd.1
  have hax := h.axis
  have hc := (checkMse_check hd.1 hm.1 (a := a) hax hn (by rw [h.shape]; rfl) (by rw [h.basetile]; rfl)).ok h
  have hsl := h.slice
  have hg2 : src.grid = dst.grid := by rw [Tensor.grid, hsh, hbt]; rfl
  have hn2 : src.ndim = dst.ndim := by simp only [Tensor.ndim, hsh]
  have hsub : ∀ t, InBox dst.grid t → (do
      let hs ← src.handleL (lin dst.grid t)
      .ok (submitSoftmax (mOf (dst.tshape t) a) (nOf (dst.tshape t) a) (kOf (dst.tshape t) a) (mse.id, lin mse.sl.grid (t.eraseIdx a)) hs alpha
        (dst.id, lin dst.grid t)) : M (Task1 α)) = .ok (submitSoftmax (mOf (dst.tshape t) a) (nOf (dst.tshape t) a) (kOf (dst.tshape t) a)
          (mse.id, lin mse.sl.grid (t.eraseIdx a)) (src.id, lin dst.grid t) alpha (dst.id, lin dst.grid t)) := by
    intro t ht
    rw [Tensor.handleL_ok (by rw [Tensor.ntiles, hg2]; exact lin_lt ht), M.bind_ok]
  simp only [softmaxAsync]
  rw [throwIf_neg (by simp [hn]), M.bind_ok, throwIf_neg (by simp [hn2]), M.bind_ok, throwIf_neg (by rw [← hn]; simp only [Tensor.ndim]; omega), M.bind_ok,
    throwIf_neg (by omega), M.bind_ok, throwIf_neg (by simp only [Tensor.ndim]; omega), M.bind_ok, vget_ok (by rw [h.shape]; simp), M.bind_ok,
    throwIf_neg (by rw [h.shape]; simp), M.bind_ok, vget_ok (by rw [h.basetile]; simp), M.bind_ok, throwIf_neg (by rw [h.basetile]; simp), M.bind_ok]
  simp only [Int.toNat_natCast, hc, M.bind_ok]
  rw [throwIf_neg (by simp [hsh]), M.bind_ok, throwIf_neg (by simp [hbt]), M.bind_ok, softmaxLoop_eq hd.1 h _ hsub]
  refine sliceLoop_run hd hsl _ (fun t ht => ⟨hsub t ht, rfl, by simp [submitSoftmax, task2, hid, hid2]⟩) _ ?_
  intro t ht
  have hte := hsl.tile_inBox hd.1 ht
  have hsz := hd.2.size ht
  have hax' : a < (dst.tshape t).length := by rw [hd.1.tshape_length ht]; exact h.axis
  have hpe : (mse.sl.tshape (t.eraseIdx a)).prod = mOf (dst.tshape t) a * nOf (dst.tshape t) a := by
    rw [hsl.tshape hd.1 ht, prod_erase]; rfl
  obtain ⟨m1, m2⟩ := mse_tile hm h hw hte
  rw [hpe] at m1 m2
  rw [size3 hax'] at hsz
  obtain ⟨b', e1, e2, e3⟩ := softmax_run (alpha := alpha) (o := Buf.undef (s (dst.id, lin dst.grid t)).size) (src := s (src.id, lin dst.grid t))
    (x := fun j => x (globIdx dst.basetile t (unlin (dst.tshape t) j))) (m := mOf (dst.tshape t) a) (n := nOf (dst.tshape t) a) (k := kOf (dst.tshape t) a)
    (by simpa [Buf.undef] using hsz) (by rw [hs.2.same hsh hbt ht, size3 hax'])
    (fun j hj => by
      rw [← size3 hax'] at hj
      have := Tensor.Holds.same hsh hbt hd.1 hx ht (unlin_inBox (hd.1.tshape_pos ht) j)
      rwa [lin_unlin hj] at this) m1 m2
  refine ⟨b', e1, by rw [e2]; rfl, ?_⟩
  intro l hl
  obtain ⟨i1, i0, i2, g1, g0, g2, q1, q2, -⟩ := view3 hax' hl
  rw [q1, e3 i1 i0 i2 g1 g0 g2, ← q1, ← q2, ← hsl.tshape hd.1 ht]
  have hle : InBox (mse.sl.tshape (t.eraseIdx a)) (l.eraseIdx a) := by rw [hsl.tshape hd.1 ht]; exact hl.erase a
  have z0 : (0 + 2 * lin (mse.sl.tshape (t.eraseIdx a)) (l.eraseIdx a)) / 2 = lin (mse.sl.tshape (t.eraseIdx a)) (l.eraseIdx a) := by omega
  have z1 : (1 + 2 * lin (mse.sl.tshape (t.eraseIdx a)) (l.eraseIdx a)) / 2 = lin (mse.sl.tshape (t.eraseIdx a)) (l.eraseIdx a) := by omega
  have z2 : (0 + 2 * lin (mse.sl.tshape (t.eraseIdx a)) (l.eraseIdx a)) % 2 = 0 := by omega
  have z3 : (1 + 2 * lin (mse.sl.tshape (t.eraseIdx a)) (l.eraseIdx a)) % 2 = 1 := by omega
  simp only [unlin_lin hl, z0, z1, z2, z3, unlin_lin hle, hsl.glob hd.1 ht hl]
  rfl

/-- `softmax_inplace` for any contents of the tensor of pairs. -/
theorem C20_softmax_inplace_bits {mse dst : Tensor} {a : Nat} {s : Store α} (hm : mse.Ready s) (hd : dst.Ready s) (hid : mse.id ≠ dst.id)
    (h : mse.MseOf dst a) (alpha : α) (w x : List Nat → α) (hw : mse.Holds s w) (hx : dst.Holds s x) :
    Computes (softmaxInplaceAsync mse alpha dst a) s dst
      (fun I => if FP.isInf (x I) then 0 else alpha * FP.exp (x I - w (0 :: I.eraseIdx a)) / w (1 :: I.eraseIdx a)) := by
  have hn := h.ndim_eq hd.1
  have hax := h.axis
  have hc := (checkMse_check hd.1 hm.1 (a := a) hax hn (by rw [h.shape]; rfl) (by rw [h.basetile]; rfl)).ok h
  have hsl := h.slice
  simp only [softmaxInplaceAsync]
  rw [throwIf_neg (by simp [hn]), M.bind_ok, throwIf_neg (by rw [← hn]; simp only [Tensor.ndim]; omega), M.bind_ok,
    throwIf_neg (by omega), M.bind_ok, throwIf_neg (by simp only [Tensor.ndim]; omega), M.bind_ok, vget_ok (by rw [h.shape]; simp), M.bind_ok,
    throwIf_neg (by rw [h.shape]; simp), M.bind_ok, vget_ok (by rw [h.basetile]; simp), M.bind_ok, throwIf_neg (by rw [h.basetile]; simp), M.bind_ok]
  simp only [Int.toNat_natCast, hc, M.bind_ok]
  rw [softmaxLoop_eq hd.1 h (fun t => submitSoftmaxInplace (mOf (dst.tshape t) a) (nOf (dst.tshape t) a) (kOf (dst.tshape t) a)
    (mse.id, lin mse.sl.grid (t.eraseIdx a)) alpha (dst.id, lin dst.grid t)) (fun t ht => rfl)]
  refine sliceLoop_run hd hsl (fun t => submitSoftmaxInplace (mOf (dst.tshape t) a) (nOf (dst.tshape t) a) (kOf (dst.tshape t) a)
    (mse.id, lin mse.sl.grid (t.eraseIdx a)) alpha (dst.id, lin dst.grid t))
    (fun t ht => ⟨rfl, rfl, by simp [submitSoftmaxInplace, task1, hid]⟩) _ ?_
  intro t ht
  have hte := hsl.tile_inBox hd.1 ht
  have hsz := hd.2.size ht
  have hax' : a < (dst.tshape t).length := by rw [hd.1.tshape_length ht]; exact h.axis
  have hpe : (mse.sl.tshape (t.eraseIdx a)).prod = mOf (dst.tshape t) a * nOf (dst.tshape t) a := by
    rw [hsl.tshape hd.1 ht, prod_erase]; rfl
  obtain ⟨m1, m2⟩ := mse_tile hm h hw hte
  rw [hpe] at m1 m2
  rw [size3 hax'] at hsz
  obtain ⟨b', e1, e2, e3⟩ := softmaxInplace_run (alpha := alpha) (o := s (dst.id, lin dst.grid t))
    (x := fun j => x (globIdx dst.basetile t (unlin (dst.tshape t) j))) (m := mOf (dst.tshape t) a) (n := nOf (dst.tshape t) a) (k := kOf (dst.tshape t) a)
    hsz
    (fun j hj => by
      rw [← size3 hax'] at hj
      have := Tensor.Holds.same rfl rfl hd.1 hx ht (unlin_inBox (hd.1.tshape_pos ht) j)
      rwa [lin_unlin hj] at this) m1 m2
  refine ⟨b', e1, e2, ?_⟩
  intro l hl
  obtain ⟨i1, i0, i2, g1, g0, g2, q1, q2, -⟩ := view3 hax' hl
  rw [q1, e3 i1 i0 i2 g1 g0 g2, ← q1, ← q2, ← hsl.tshape hd.1 ht]
  have hle : InBox (mse.sl.tshape (t.eraseIdx a)) (l.eraseIdx a) := by rw [hsl.tshape hd.1 ht]; exact hl.erase a
  have z0 : (0 + 2 * lin (mse.sl.tshape (t.eraseIdx a)) (l.eraseIdx a)) / 2 = lin (mse.sl.tshape (t.eraseIdx a)) (l.eraseIdx a) := by omega
  have z1 : (1 + 2 * lin (mse.sl.tshape (t.eraseIdx a)) (l.eraseIdx a)) / 2 = lin (mse.sl.tshape (t.eraseIdx a)) (l.eraseIdx a) := by omega
  have z2 : (0 + 2 * lin (mse.sl.tshape (t.eraseIdx a)) (l.eraseIdx a)) % 2 = 0 := by omega
  have z3 : (1 + 2 * lin (mse.sl.tshape (t.eraseIdx a)) (l.eraseIdx a)) % 2 = 1 := by omega
  simp only [unlin_lin hl, z0, z1, z2, z3, unlin_lin hle, hsl.glob hd.1 ht hl]
  rfl

/-- `logsumexp` for any contents of the tensor of pairs `mse`, whatever was in `dst` before. -/
theorem C20_logsumexp_bits {mse dst : Tensor} {s : Store α} (hm : mse.Ready s) (hd : dst.Ready s) (hid : mse.id ≠ dst.id)
    (hsh : mse.shape = 2 :: dst.shape) (hbt : mse.basetile = 2 :: dst.basetile) (w : List Nat → α) (hw : mse.Holds s w) :
    Computes (logsumexpAsync mse dst) s dst (fun I => w (0 :: I) + FP.log (w (1 :: I))) := by
  have h : mse.MseOf ⟨0, 1 :: dst.shape, 1 :: dst.basetile⟩ 0 := ⟨by simp, by simpa using hsh, by simpa using hbt⟩
  have hc := (logsumexp_check hm.1 hd.1 (by simp [Tensor.ndim, hsh]) (by rw [hsh]; rfl) (by rw [hbt]; rfl)).ok ⟨hsh, hbt⟩
  have hslsh : mse.sl.shape = dst.shape := by rw [Tensor.sl, hsh]; rfl
  have hslbt : mse.sl.basetile = dst.basetile := by rw [Tensor.sl, hbt]; rfl
  have hg : mse.sl.grid = dst.grid := by rw [Tensor.grid, hslsh, hslbt]; rfl
  have hts : ∀ t, mse.sl.tshape t = dst.tshape t := fun t => by rw [Tensor.tshape, hslsh, hslbt]; rfl
  have hnt : mse.ntiles = dst.ntiles := by rw [h.sl_ntiles, Tensor.ntiles, hg]; rfl
  simp only [logsumexpAsync]
  rw [throwIf_neg (by simp [Tensor.ndim, hsh]), M.bind_ok, throwIf_neg (by simp [Tensor.ndim, hsh]), M.bind_ok, vget_ok (by rw [hsh]; simp), M.bind_ok,
    throwIf_neg (by rw [hsh]; simp), M.bind_ok, vget_ok (by rw [hbt]; simp), M.bind_ok, throwIf_neg (by rw [hbt]; simp), M.bind_ok, hc, M.bind_ok]
  refine computes_tile hd (fun t => submitLogsumexp (dst.tshape t).prod (mse.id, lin dst.grid t) (dst.id, lin dst.grid t)) ?_ _
    (fun t ht => ⟨rfl, by simp [submitLogsumexp, task1, hid]⟩) ?_
  · intro t ht
    have hl := lin_lt ht
    rw [Tensor.handleL_ok hl, M.bind_ok, Tensor.handleL_ok (by rw [hnt]; exact hl), M.bind_ok, Tensor.tshapeL_lin ht]
  · intro t ht
    obtain ⟨m1, m2⟩ := mse_tile hm h hw (t := t) (by rw [hg]; exact ht)
    rw [hg, hts] at m1 m2
    have hsz := hd.2.size ht
    refine ⟨⟨(dst.tshape t).prod, fun k => if k < (dst.tshape t).prod then
      some (w (0 :: globIdx dst.basetile t (unlin (dst.tshape t) k)) + FP.log (w (1 :: globIdx dst.basetile t (unlin (dst.tshape t) k)))) else none⟩, ?_,
      hsz.symm, ?_⟩
    · show logsumexpKernel _ _ (Buf.undef _) = _
      rw [hsz]
      refine forN_put (b := Buf.undef (dst.tshape t).prod) (fun k => w (0 :: globIdx dst.basetile t (unlin (dst.tshape t) k)) +
        FP.log (w (1 :: globIdx dst.basetile t (unlin (dst.tshape t) k)))) ?_
      intro i hi d hd1 hd2
      rw [Buf.rd_ok (by omega) (m2 _ (by omega)), M.bind_ok, Buf.rd_ok (by omega) (m2 _ (by omega)), M.bind_ok, Buf.wr_put (by rw [hd1]; exact hi)]
      have z0 : 2 * i / 2 = i := by omega
      have z1 : (2 * i + 1) / 2 = i := by omega
      have z2 : 2 * i % 2 = 0 := by omega
      have z3 : (2 * i + 1) % 2 = 1 := by omega
      rw [z0, z1, z2, z3, hslbt]
    · intro l hl
      simp only [lin_lt hl, if_true, unlin_lin hl]

end anyScalar
/-! ## Exact arithmetic with masks

`I.set a L` is `I` with entry number `a` replaced by `L`, so `fun L => x (I.set a L)` is the row of `x` along the axis through `I`. -/

theorem C20_softmax {mse src dst : Tensor} {a : Nat} {s : Store XReal} (hm : mse.Ready s) (hs : src.Ready s) (hd : dst.Ready s) (hid : mse.id ≠ dst.id)
    (hid2 : src.id ≠ dst.id) (h : mse.MseOf dst a) (hsh : src.shape = dst.shape) (hbt : src.basetile = dst.basetile) (alpha : ℝ)
    (x : List Nat → XReal) (hx : src.Holds s x) (hxm : ∀ I, InBox dst.shape I → (x I).NumOrMask) (hw : HoldsMse mse s dst.shape a x) :
    Computes (softmaxAsync mse src (.fin alpha) dst a) s dst
      (fun I => .fin (softmaxSpec alpha (dst.shape.getD a 0) (fun L => x (I.set a L)) (I.getD a 0))) := by
  obtain ⟨w, hw, hv⟩ := hw
  refine (C20_softmax_bits hm hs hd hid hid2 h hsh hbt (.fin alpha) w x hw hx).congr ?_
  intro I hI
  have ha : a < I.length := by rw [hI.length]; exact h.axis
  have e := softmax_value alpha (hv _ (hI.erase a)) (l := I.getD a 0) (hI.getD h.axis) (by simpa only [insert_erase ha] using hxm I hI)
  simpa only [insert_erase ha, set_insert ha] using e

theorem C20_softmax_inplace {mse dst : Tensor} {a : Nat} {s : Store XReal} (hm : mse.Ready s) (hd : dst.Ready s) (hid : mse.id ≠ dst.id)
    (h : mse.MseOf dst a) (alpha : ℝ)
    (x : List Nat → XReal) (hx : dst.Holds s x) (hxm : ∀ I, InBox dst.shape I → (x I).NumOrMask) (hw : HoldsMse mse s dst.shape a x) :
    Computes (softmaxInplaceAsync mse (.fin alpha) dst a) s dst
      (fun I => .fin (softmaxSpec alpha (dst.shape.getD a 0) (fun L => x (I.set a L)) (I.getD a 0))) := by
  obtain ⟨w, hw, hv⟩ := hw
  refine (C20_softmax_inplace_bits hm hd hid h (.fin alpha) w x hw hx).congr ?_
  intro I hI
  have ha : a < I.length := by rw [hI.length]; exact h.axis
  have e := softmax_value alpha (hv _ (hI.erase a)) (l := I.getD a 0) (hI.getD h.axis) (by simpa only [insert_erase ha] using hxm I hI)
  simpa only [insert_erase ha, set_insert ha] using e

/-- `logsumexp` of the pairs computed from data `x` of shape `S` along axis `a`. -/
theorem C20_logsumexp {mse dst : Tensor} {a : Nat} {S : List Nat} {s : Store XReal} (hm : mse.Ready s) (hd : dst.Ready s) (hid : mse.id ≠ dst.id)
    (hsh : mse.shape = 2 :: dst.shape) (hbt : mse.basetile = 2 :: dst.basetile) (hS : dst.shape = S.eraseIdx a)
    (x : List Nat → XReal) (hw : HoldsMse mse s S a x) :
    Computes (logsumexpAsync mse dst) s dst (fun I => logsumexpSpec (S.getD a 0) (fun L => x (I.insertIdx a L))) := by
  obtain ⟨w, hw, hv⟩ := hw
  refine (C20_logsumexp_bits hm hd hid hsh hbt w hw).congr ?_
  intro I hI
  rw [hS] at hI
  exact logsumexp_value (hv I hI)

/-- The whole chain of operations, from the data to the softmax: `clear`, `maxsumexp`, `softmax`, with arbitrary contents of `mse` and `dst` before. -/
theorem C20_chain {mse src dst : Tensor} {a : Nat} {s : Store XReal} (hm : mse.Ready s) (hs : src.Ready s) (hd : dst.Ready s) (hid : mse.id ≠ dst.id)
    (hid2 : src.id ≠ dst.id) (hid3 : src.id ≠ mse.id) (h : mse.MseOf dst a) (hsh : src.shape = dst.shape) (hbt : src.basetile = dst.basetile)
    (redux : Bool) (alpha : ℝ) (x : List Nat → XReal) (hx : src.Holds s x) (hxm : ∀ I, InBox dst.shape I → (x I).NumOrMask) :
    ∃ ts1 ts2 ts3 s', clearAsync mse = .ok ts1 ∧ maxsumexpAsync src mse a redux = .ok ts2 ∧ softmaxAsync mse src (.fin alpha) dst a = .ok ts3 ∧
      runAll1 (ts1 ++ ts2 ++ ts3) s = .ok s' ∧ OnlyChanged [mse.id, dst.id] s s' ∧
      dst.Holds s' (fun I => .fin (softmaxSpec alpha (dst.shape.getD a 0) (fun L => x (I.set a L)) (I.getD a 0))) := by
  have h' : mse.MseOf src a := ⟨by rw [hsh]; exact h.axis, by rw [hsh]; exact h.shape, by rw [hbt]; exact h.basetile⟩
  obtain ⟨ts1, ts2, s1, e1, e2, e3, e4, v, e5, e6⟩ := C19_clear_maxsumexp hs hm hid3 h' redux x hx (by rw [hsh]; exact hxm)
  have hrd : ∀ T : Tensor, T.Ready s → T.id ≠ mse.id → T.Ready s1 := fun T hT hi => e4.ready hT (by simpa using hi)
  have hm1 : mse.Ready s1 := by
    obtain ⟨ts1', s0, f1, f2, f3, f4, f5⟩ := C11_clear hm
    obtain ⟨v', ⟨ts2', s2, g1, g2, g3, g4, g5⟩, -⟩ := C19_maxsumexp (f4.ready hs (by simpa using hid3)) f5 hid3 h' redux x (f4.holds hx (by simpa using hid3))
      (by rw [hsh]; exact hxm) f3
    rw [e1] at f1; rw [e2] at g1
    cases f1; cases g1
    rw [runAll1_append, f2, M.bind_ok, g2] at e3
    cases e3
    exact g5
  obtain ⟨ts3, s3, f1, f2, f3, f4, -⟩ := C20_softmax hm1 (hrd src hs hid3) (hrd dst hd hid.symm) hid hid2 h hsh hbt alpha x
    (e4.holds hx (by simpa using hid3)) hxm ⟨v, e5, by rw [← hsh]; exact e6⟩
  exact ⟨ts1, ts2, ts3, s3, e1, e2, f1, by rw [runAll1_append, e3, M.bind_ok, f2], (e4.trans f4).mono (by simp), f3⟩

/-- With `alpha = 1` the row is a probability distribution whenever some entry is not masked; masked entries get probability zero. -/
theorem C20_distribution {n : Nat} {r : Nat → XReal} (hn : ∃ l b, l < n ∧ r l = .fin b) :
    (∀ l, l < n → 0 ≤ softmaxSpec 1 n r l ∧ softmaxSpec 1 n r l ≤ 1) ∧ ∑ l ∈ range n, softmaxSpec 1 n r l = 1 ∧
      (∀ l, r l = .ninf → softmaxSpec 1 n r l = 0) ∧ ∀ l b, r l = .fin b → 0 < softmaxSpec 1 n r l := by
  obtain ⟨l0, b0, hl0, hb0⟩ := hn
  have hp := sum_expWeight_pos hl0 hb0 0
  refine ⟨fun l hl => ⟨?_, ?_⟩, ?_, ?_, ?_⟩
  · simp only [softmaxSpec, one_mul]
    exact div_nonneg (expWeight_nonneg _ _) hp.le
  · simp only [softmaxSpec, one_mul]
    rw [div_le_one hp]
    exact single_le_sum (f := fun l => expWeight 0 (r l)) (fun i _ => expWeight_nonneg _ _) (mem_range.2 hl)
  · simp only [softmaxSpec, one_mul]
    rw [← sum_div, div_self hp.ne']
  · intro l hl
    simp [softmaxSpec, hl, expWeight]
  · intro l b hb
    simp only [softmaxSpec, one_mul]
    refine div_pos ?_ hp
    rw [hb]; exact Real.exp_pos _

/-- Adding a number to all entries of the row (masks stay masks) does not change the softmax. -/
theorem C20_shift_invariant {n : Nat} {r r' : Nat → XReal} {c : ℝ} (alpha : ℝ) (hr : ∀ l, l < n → (r l).NumOrMask)
    (h : ∀ l, l < n → r' l = r l + .fin c) {l : Nat} (hl : l < n) : softmaxSpec alpha n r' l = softmaxSpec alpha n r l := by
  have key : ∀ j, j < n → expWeight 0 (r' j) = expWeight 0 (r j) * Real.exp c := by
    intro j hj
    rw [h j hj]
    rcases hr j hj with e | ⟨b, e⟩ <;> rw [e]
    · show expWeight 0 .ninf = _
      simp [expWeight]
    · simp only [XReal.fin_add, expWeight, sub_zero, Real.exp_add]
  have e : ∑ j ∈ range n, expWeight 0 (r' j) = (∑ j ∈ range n, expWeight 0 (r j)) * Real.exp c := by
    rw [sum_mul]; exact sum_congr rfl (fun j hj => key j (mem_range.1 hj))
  have := Real.exp_pos c
  rw [softmaxSpec, softmaxSpec, e, key l hl, ← mul_assoc, mul_div_mul_right _ _ this.ne']

/-! ## Rejection -/

/-- `softmax` accepts exactly the tensors that fit. -/
theorem C20_softmax_rejects {α : Type} [FP α] {mse src dst : Tensor} (hm : mse.WF) (hd : dst.WF) (alpha : α) (axis : Int)
    (h : ¬ ∃ a : Nat, axis = a ∧ mse.MseOf dst a ∧ src.shape = dst.shape ∧ src.basetile = dst.basetile) : Throws (softmaxAsync mse src alpha dst axis) := by
  simp only [softmaxAsync]
  refine throws_step fun h1 => throws_step fun h2 => throws_step fun h3 => throws_step fun h4 => throws_step fun h4' => ?_
  simp only [ne_eq, not_not] at h1
  have hl : 0 < mse.shape.length := by simp only [Tensor.ndim] at h1 h3; omega
  rw [vget_ok hl, M.bind_ok]
  refine throws_step fun h5 => ?_
  rw [vget_ok (by rw [hm.2.2]; exact hl), M.bind_ok]
  refine throws_step fun h6 => ?_
  simp only [ne_eq, not_not] at h5 h6
  have hc := checkMse_check hd hm (a := axis.toNat) (by omega) h1.symm h5 h6
  by_cases hmse : mse.MseOf dst axis.toNat
  · rw [hc.ok hmse, M.bind_ok]
    refine throws_step fun h7 => throws_step fun h8 => ?_
    exact absurd ⟨axis.toNat, by omega, hmse, not_not.1 h7, not_not.1 h8⟩ h
  · exact hc.throws hmse

theorem C20_softmax_inplace_rejects {α : Type} [FP α] {mse dst : Tensor} (hm : mse.WF) (hd : dst.WF) (alpha : α) (axis : Int)
    (h : ¬ ∃ a : Nat, axis = a ∧ mse.MseOf dst a) : Throws (softmaxInplaceAsync mse alpha dst axis) := by
  simp only [softmaxInplaceAsync]
  refine throws_step fun h1 => throws_step fun h3 => throws_step fun h4 => throws_step fun h4' => ?_
  simp only [ne_eq, not_not] at h1
  have hl : 0 < mse.shape.length := by simp only [Tensor.ndim] at h1 h3; omega
  rw [vget_ok hl, M.bind_ok]
  refine throws_step fun h5 => ?_
  rw [vget_ok (by rw [hm.2.2]; exact hl), M.bind_ok]
  refine throws_step fun h6 => ?_
  simp only [ne_eq, not_not] at h5 h6
  have hc := checkMse_check hd hm (a := axis.toNat) (by omega) h1.symm h5 h6
  by_cases hmse : mse.MseOf dst axis.toNat
  · exact absurd ⟨axis.toNat, by omega, hmse⟩ h
  · exact hc.throws hmse

theorem C20_logsumexp_rejects {α : Type} [FP α] {mse dst : Tensor} (hm : mse.WF) (hd : dst.WF)
    (h : ¬ (mse.shape = 2 :: dst.shape ∧ mse.basetile = 2 :: dst.basetile)) : Throws (logsumexpAsync (α := α) mse dst) := by
  simp only [logsumexpAsync]
  refine throws_step fun h1 => throws_step fun h3 => ?_
  simp only [ne_eq, not_not] at h1
  have hl : 0 < mse.shape.length := by simp only [Tensor.ndim] at h1 h3; omega
  rw [vget_ok hl, M.bind_ok]
  refine throws_step fun h5 => ?_
  rw [vget_ok (by rw [hm.2.2]; exact hl), M.bind_ok]
  refine throws_step fun h6 => ?_
  simp only [ne_eq, not_not] at h5 h6
  exact (logsumexp_check hm hd (by omega) h5 h6).throws h

/-- The hypotheses hold in a non-trivial case: a `5×7×4` tensor in `2×3×4` tiles, masked entries among the data, axis 1. `C20_chain` then applies, and its
result gives the hypotheses of the other theorems. -/
example : ∃ (mse src dst : Tensor) (s : Store XReal) (x : List Nat → XReal), dst.ntiles = 9 ∧ mse.Ready s ∧ src.Ready s ∧ dst.Ready s ∧ mse.id ≠ dst.id ∧
    src.id ≠ dst.id ∧ src.id ≠ mse.id ∧ mse.MseOf dst 1 ∧ src.shape = dst.shape ∧ src.basetile = dst.basetile ∧ src.Holds s x ∧
    (∀ I, InBox dst.shape I → (x I).NumOrMask) ∧ (∃ I, InBox dst.shape I ∧ x I = .ninf) ∧ ∃ I, InBox dst.shape I ∧ ∃ b, x I = .fin b := by
  obtain ⟨s, h1, h2, h3⟩ := exists_store3 (A := ⟨0, [5,7,4], [2,3,4]⟩) (B := ⟨1, [2,5,4], [2,2,4]⟩) (C := ⟨2, [5,7,4], [2,3,4]⟩)
    (fun I => if I.headD 0 = 0 then .ninf else XReal.fin (lin [5,7,4] I : ℝ)) (fun _ => XReal.fin 0) (fun _ => XReal.nan)
    (by decide) (by decide) (by decide) (by decide) (by decide) (by decide)
  refine ⟨⟨1, [2,5,4], [2,2,4]⟩, ⟨0, [5,7,4], [2,3,4]⟩, ⟨2, [5,7,4], [2,3,4]⟩, s, _, by decide, h2.1, h1.1, h3.1, by decide, by decide, by decide,
    ⟨by decide, by decide, by decide⟩, rfl, rfl, h1.2, ?_, ⟨[0,0,0], by decide, rfl⟩, [1,0,0], by decide, _, rfl⟩
  intro I _
  show XReal.NumOrMask (if I.headD 0 = 0 then .ninf else XReal.fin (lin [5,7,4] I : ℝ))
  split
  · exact Or.inl rfl
  · exact Or.inr ⟨_, rfl⟩

/-- A row with one mask and two numbers: `softmax = (1/(1+e), 0, e/(1+e))`. -/
example : let r : Nat → XReal := fun l => if l = 1 then .ninf else .fin (l / 2)
    softmaxSpec 1 3 r 0 = 1 / (1 + Real.exp 1) ∧ softmaxSpec 1 3 r 1 = 0 ∧ softmaxSpec 1 3 r 2 = Real.exp 1 / (1 + Real.exp 1) := by
  simp [softmaxSpec, sum_range_succ, expWeight]

end NNTile
