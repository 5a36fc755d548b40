import Verif.Lib.Maxsumexp
import Verif.Lib.Check
/-! Tensors of pairs. -/
namespace NNTile
open Finset
variable {α : Type}

/-- The tensor without its first dimension (proof device). -/
def Tensor.sl (T : Tensor) : Tensor := ⟨T.id, T.shape.tail, T.basetile.tail⟩

theorem vget_tail (l : List Nat) (i : Nat) : vget l (i + 1) = vget l.tail i := by
  simp only [vget, List.getElem?_tail]

theorem checkPair_sl (A B : Tensor) (i j : Nat) : checkPair A B i (j + 1) = checkPair A B.sl i j := by
  simp only [checkPair, Tensor.sl, vget_tail]

theorem checkMse_eq (A B : Tensor) (a : Nat) : checkMse A B a = checkErase A B.sl a := by
  simp only [checkMse, checkErase, checkPair_sl]
  congr 1
  funext _
  congr 1
  funext i
  rw [show a + 1 + i = (a + i) + 1 by omega, checkPair_sl]

namespace Tensor.MseOf
variable {mse src : Tensor} {a : Nat} (h : mse.MseOf src a)
include h

theorem sl_shape : mse.shape = 2 :: mse.sl.shape := by rw [sl, h.shape]; rfl
theorem sl_basetile : mse.basetile = 2 :: mse.sl.basetile := by rw [sl, h.basetile]; rfl

theorem slice : mse.sl.SliceOf src a := ⟨h.axis, by rw [sl, h.shape]; rfl, by rw [sl, h.basetile]; rfl⟩

theorem sl_wf (hm : mse.WF) : mse.sl.WF := by
  obtain ⟨h1, h2, h3⟩ := hm
  rw [h.sl_shape] at h1 h3
  rw [h.sl_basetile] at h2 h3
  exact ⟨fun x hx => h1 x (by simp [hx]), fun x hx => h2 x (by simp [hx]), by simpa using h3⟩

theorem grid : mse.grid = 1 :: mse.sl.grid := by
  rw [Tensor.grid, h.sl_shape, h.sl_basetile]
  rfl

theorem tile {u : List Nat} (hu : InBox mse.grid u) : ∃ t, u = 0 :: t ∧ InBox mse.sl.grid t := by
  rw [h.grid] at hu
  cases u with
  | nil => exact absurd hu (by simp [InBox])
  | cons e t =>
    obtain ⟨h1, h2⟩ := hu
    obtain rfl : e = 0 := by omega
    exact ⟨t, rfl, h2⟩

theorem tile_inBox {t : List Nat} (ht : InBox mse.sl.grid t) : InBox mse.grid (0 :: t) := by
  rw [h.grid]; exact ⟨by omega, ht⟩

theorem lin_grid (t : List Nat) : lin mse.grid (0 :: t) = lin mse.sl.grid t := by
  rw [h.grid]; simp [lin]

theorem tshape (t : List Nat) : mse.tshape (0 :: t) = 2 :: mse.sl.tshape t := by
  rw [Tensor.tshape, h.sl_shape, h.sl_basetile]
  rfl

theorem glob (t l : List Nat) (e : Nat) : globIdx mse.basetile (0 :: t) (e :: l) = e :: globIdx mse.sl.basetile t l := by
  rw [h.sl_basetile]
  simp [globIdx]

theorem ndim_eq (hs : src.WF) : src.ndim = mse.ndim := by
  simp only [Tensor.ndim, h.shape, List.length_cons, List.length_eraseIdx_of_lt h.axis]
  have := h.axis
  omega

end Tensor.MseOf

theorem checkMse_check {src mse : Tensor} (hs : src.WF) (hm : mse.WF) {a : Nat} (ha : a < src.ndim) (hn : src.ndim = mse.ndim)
    (h0 : mse.shape.getD 0 0 = 2) (h1 : mse.basetile.getD 0 0 = 2) : Check (checkMse src mse a) (mse.MseOf src a) := by
  rw [checkMse_eq]
  obtain ⟨w1, w2, w3⟩ := hm
  cases hS : mse.shape with
  | nil => rw [hS] at h0; simp at h0
  | cons c S =>
    cases hB : mse.basetile with
    | nil => rw [hB] at h1; simp at h1
    | cons d B =>
      rw [hS] at h0 w1 w3
      rw [hB] at h1 w2 w3
      simp only [List.getD_cons_zero] at h0 h1
      subst h0 h1
      have hsl : mse.sl = ⟨mse.id, S, B⟩ := by rw [Tensor.sl, hS, hB]; rfl
      rw [hsl]
      refine (checkErase_check hs (B := ⟨mse.id, S, B⟩) ⟨fun x hx => w1 x (by simp [hx]), fun x hx => w2 x (by simp [hx]), by simpa using w3⟩ ha
        (by simp only [Tensor.ndim, hS, List.length_cons] at hn ⊢; omega)).mono ?_
      constructor
      · rintro ⟨e1, e2⟩
        exact ⟨ha, by rw [hS]; simpa using e1, by rw [hB]; simpa using e2⟩
      · rintro ⟨-, e1, e2⟩
        rw [hS] at e1
        rw [hB] at e2
        exact ⟨by simpa using e1, by simpa using e2⟩

/-- The tasks that `maxsumexp` submits for the tile `t` of `dst`. -/
def mseTasks [FP α] (src dst : Tensor) (a : Nat) (redux : Bool) (t : List Nat) : List (Task1 α) :=
  (List.range (src.grid.getD a 0)).flatMap (fun j => [submitMaxsumexp
    (mOf (src.tshape (t.tail.insertIdx a j)) a) (nOf (src.tshape (t.tail.insertIdx a j)) a) (kOf (src.tshape (t.tail.insertIdx a j)) a)
    (src.id, lin src.grid (t.tail.insertIdx a j)) (dst.id, lin dst.grid t) redux])

theorem maxsumexpAsync_ok [FP α] {src dst : Tensor} {a : Nat} (hs : src.WF) (hd : dst.WF) (h : dst.MseOf src a) (redux : Bool) :
    maxsumexpAsync src dst a redux = .ok ((List.range dst.ntiles).flatMap (fun i => mseTasks (α := α) src dst a redux (dst.tindex i))) := by
  have hn := h.ndim_eq hs
  have hax := h.axis
  have hc := checkMse_check hs hd (a := a) hax hn (by rw [h.shape]; rfl) (by rw [h.basetile]; rfl)
  have hsl := h.slice
  have hax' := hsl.axis_grid hs
  simp only [maxsumexpAsync]
  rw [throwIf_neg (by simpa using hn), M.bind_ok, throwIf_neg (by simp only [Tensor.ndim]; omega), M.bind_ok, throwIf_neg (by omega), M.bind_ok,
    throwIf_neg (by simp only [Tensor.ndim]; omega), M.bind_ok, vget_ok (by rw [h.shape]; simp), M.bind_ok,
    throwIf_neg (by rw [h.shape]; simp), M.bind_ok, vget_ok (by rw [h.basetile]; simp), M.bind_ok, throwIf_neg (by rw [h.basetile]; simp), M.bind_ok]
  simp only [Int.toNat_natCast, hc.ok h, M.bind_ok]
  apply forTasks_ok
  intro i hi
  rw [Tensor.handleL_ok hi, M.bind_ok, vget_ok hax', M.bind_ok]
  apply forTasks_ok
  intro j hj
  obtain ⟨t, ht, hin⟩ := h.tile (dst.tindex_inBox i)
  have hin' : InBox src.grid (mseTileIndex (dst.tindex i) a j) := by
    rw [mseTileIndex, ht]; exact hsl.insert_inBox hs hin hj
  rw [Tensor.handleAt_ok hin', M.bind_ok, Tensor.tshapeAt_ok hin', M.bind_ok, Tensor.lin_tindex hi]
  rfl

theorem maxsumexp_computes {src dst : Tensor} {a : Nat} {s : Store XReal} (hs : src.Ready s) (hd : dst.Ready s) (hid : src.id ≠ dst.id)
    (h : dst.MseOf src a) (redux : Bool) (x : List Nat → XReal) (hx : src.Holds s x) (hxm : ∀ I, InBox src.shape I → (x I).NumOrMask)
    (q : List Nat → Mse) (hq : ∀ I, (q I).Valid) (hdq : dst.Holds s (fun I => (q I.tail).enc (I.headD 0))) :
    Computes (maxsumexpAsync src dst a redux) s dst
      (fun I => (q I.tail + ∑ L ∈ range (src.shape.getD a 0), Mse.of (x (I.tail.insertIdx a L))).enc (I.headD 0)) := by
  have hn := h.ndim_eq hs.1
  have hax := h.axis
  have hc := checkMse_check hs.1 hd.1 (a := a) hax hn (by rw [h.shape]; rfl) (by rw [h.basetile]; rfl)
  have hg : src.grid.getD a 0 = (src.shape.getD a 0 - 1) / src.basetile.getD a 0 + 1 := getD_gridOf hs.1.2.2 hax
  have hsl := h.slice
  have hax' := hsl.axis_grid hs.1
  have hwf := h.sl_wf hd.1
  let V : Nat → List Nat → Mse := fun j I => q I + ∑ j' ∈ range j,
    ∑ i ∈ range (min (src.basetile.getD a 0) (src.shape.getD a 0 - j' * src.basetile.getD a 0)), Mse.of (x (I.insertIdx a (j' * src.basetile.getD a 0 + i)))
  have hV : ∀ I, V (src.grid.getD a 0) I = q I + ∑ L ∈ range (src.shape.getD a 0), Mse.of (x (I.insertIdx a L)) := by
    intro I
    simp only [V]
    rw [hg, sum_tiles_fn (hs.1.1.getD hax) (hs.1.2.1.getD (by rw [hs.1.2.2]; exact hax)) (fun i => Mse.of (x (I.insertIdx a i)))]
  have hVv : ∀ j I, (V j I).Valid := by
    intro j I
    refine (hq I).add ?_
    rw [sum_sigma']
    exact Mse.valid_sum _ _
  refine computes_tiles hd (mseTasks src dst a redux) (maxsumexpAsync_ok hs.1 hd.1 h redux) _ ?_ ?_
  · intro t ht u hu
    simp only [mseTasks, List.mem_flatMap, List.mem_range, List.mem_singleton] at hu
    obtain ⟨j, hj, rfl⟩ := hu
    simp [submitMaxsumexp, task1, hid]
  · intro u hu
    obtain ⟨t, rfl, ht⟩ := h.tile hu
    have hsz := hd.2.size hu
    have hts := h.tshape t
    have hp : (dst.tshape (0 :: t)).prod = 2 * (dst.sl.tshape t).prod := by rw [hts]; simp
    simp only [mseTasks, List.tail_cons]
    obtain ⟨b', e, e1, e2⟩ := foldBuf_range_inv (s := s) (N := src.grid.getD a 0) (task := fun j => submitMaxsumexp
        (mOf (src.tshape (t.insertIdx a j)) a) (nOf (src.tshape (t.insertIdx a j)) a) (kOf (src.tshape (t.insertIdx a j)) a)
        (src.id, lin src.grid (t.insertIdx a j)) (dst.id, lin dst.grid (0 :: t)) redux)
      (b := s (dst.id, lin dst.grid (0 :: t)))
      (fun j c => c.size = (dst.tshape (0 :: t)).prod ∧
        ∀ l e, InBox (dst.sl.tshape t) l → e < 2 → c.data (e + 2 * lin (dst.sl.tshape t) l) = some ((V j (globIdx dst.sl.basetile t l)).enc e))
      ⟨hsz, by
        intro l e hl he
        have hin : InBox (dst.tshape (0 :: t)) (e :: l) := by rw [hts]; exact ⟨he, hl⟩
        have := hdq _ (hd.1.glob hu hin).1
        rw [hd.1.get_glob hu hin, h.glob, hts] at this
        simpa [V, lin] using this⟩ (by
        rintro j hj c ⟨c1, c2⟩
        obtain ⟨X, hts', hz1, hz2, hk, hX, hv⟩ := slice_tile hsl hs ht hj hx
        have hu' := hsl.insert_inBox hs.1 ht hj
        have hXm : ∀ k, k < mOf (src.tshape (t.insertIdx a j)) a * (kOf (src.tshape (t.insertIdx a j)) a * nOf (src.tshape (t.insertIdx a j)) a) →
            (X k).NumOrMask := by
          intro k hk'
          have h1 := hX k hk'
          have hax2 : a < (src.tshape (t.insertIdx a j)).length := by rw [hs.1.tshape_length hu']; exact h.axis
          rw [← size3 hax2] at hk'
          have h2 := hx.data hs.1 hu' hk'
          rw [h1] at h2
          rw [Option.some.inj h2]
          exact hxm _ (hs.1.glob hu' (unlin_inBox (hs.1.tshape_pos hu') k)).1
        have hkp : 0 < kOf (src.tshape (t.insertIdx a j)) a := by
          have hax2 : a < (src.tshape (t.insertIdx a j)).length := by rw [hs.1.tshape_length hu']; exact h.axis
          exact (hs.1.tshape_pos hu').getD hax2
        obtain ⟨b', f1, f2, f3⟩ := maxsumexp_run hkp (o := c) (q := fun k => V j (globIdx dst.sl.basetile t (unlin (dst.sl.tshape t) k)))
          (by rw [c1, hp, hz1]) hz2 hX hXm (by
            intro k hk'
            refine ⟨hVv _ _, fun e he => ?_⟩
            rw [← hz1] at hk'
            have := c2 (unlin (dst.sl.tshape t) k) e (unlin_inBox (hwf.tshape_pos ht) k) he
            rwa [lin_unlin hk'] at this)
        refine ⟨b', ?_, by rw [f2, c1], ?_⟩
        · cases redux <;> simpa [submitMaxsumexp, task1, Task1.inp] using f1
        · intro l e hl he
          obtain ⟨i1, i2, g1, g2, q1, q2⟩ := hv l hl
          rw [q1, f3 e i1 i2 he g1 g2, ← q1, unlin_lin hl]
          congr 2
          simp only [V]
          rw [sum_range_succ, ← add_assoc]
          congr 1
          rw [hk]
          exact sum_congr rfl (fun i hi => by rw [← hk] at hi ⊢; rw [q2 i (mem_range.1 hi)]))
    refine ⟨b', e, by rw [e1, hsz], ?_⟩
    intro l hl
    rw [hts] at hl
    cases l with
    | nil => exact absurd hl (by simp [InBox])
    | cons c l =>
      obtain ⟨he, hl⟩ := hl
      rw [hts, h.glob]
      show b'.data (c + 2 * lin _ l) = _
      rw [e2 l c hl he, hV]
      rfl

end NNTile
