import Verif.Lib.ReduxSum
import Verif.Lib.MseTensor
/-!
# Executions with replicas: `maxsumexp`
-/
namespace NNTile
open Finset

/-- A buffer of `n` pairs. -/
def MseRep (n : Nat) (b : Buf XReal) (g : Nat → Mse) : Prop :=
  b.size = 2 * n ∧ ∀ c, c < n → (g c).Valid ∧ ∀ e, e < 2 → b.data (e + 2 * c) = some ((g c).enc e)

theorem reduxMse_sound (n : Nat) : (reduxMse : ReduxCl XReal).Sound (MseRep n) (2 * n) where
  size h := h.1
  init := ⟨_, rfl, rfl, fun c hc => ⟨Mse.valid_zero, fun e he => by
    have : e + 2 * c < 2 * n := by omega
    simp only [Buf.undef, this, if_true]
    rfl⟩⟩
  merge := by
    rintro b g c k ⟨h1, h2⟩ ⟨h3, h4⟩
    obtain ⟨b', e1, e2, e3⟩ := accumulateMse_run h1 h3 h4 h2
    refine ⟨b', ?_, by rw [e2, h1], fun c hc => ⟨(h2 c hc).1.add (h4 c hc).1, fun e he => e3 e c he hc⟩⟩
    show accumulateMaxsumexpKernel (b.size / 2) c b = _
    rw [h1, Nat.mul_div_cancel_left _ (by omega), e1]

theorem MseRep.det {n : Nat} {g : Nat → Mse} {c c' : Buf XReal} (h : MseRep n c g) (h' : MseRep n c' g) {j : Nat} (hj : j < 2 * n) : c.data j = c'.data j := by
  have h1 := (h.2 (j / 2) (by omega)).2 (j % 2) (by omega)
  have h2 := (h'.2 (j / 2) (by omega)).2 (j % 2) (by omega)
  rw [Nat.mod_add_div] at h1 h2
  rw [h1, h2]

theorem maxsumexp_redux {src dst : Tensor} {a : Nat} {s : Store XReal} (hs : src.Ready s) (hd : dst.Ready s) (hid : src.id ≠ dst.id)
    (h : dst.MseOf src a) (redux : Bool) (x : List Nat → XReal) (hx : src.Holds s x) (hxm : ∀ I, InBox src.shape I → (x I).NumOrMask)
    (q : List Nat → Mse) (hq : ∀ I, (q I).Valid) (hdq : dst.Holds s (fun I => (q I.tail).enc (I.headD 0))) :
    ComputesRedux reduxMse (maxsumexpAsync src dst a redux) s dst
      (fun I => (q I.tail + ∑ L ∈ range (src.shape.getD a 0), Mse.of (x (I.tail.insertIdx a L))).enc (I.headD 0)) := by
  have hC := maxsumexp_computes hs hd hid h redux x hx hxm q hq hdq
  have hsl := h.slice
  have hg0 : 0 < src.grid.getD a 0 := (src.grid_pos).getD (hsl.axis_grid hs.1)
  refine computesRedux_of_tiles hd hC (mseTasks src dst a redux) (maxsumexpAsync_ok hs.1 hd.1 h redux) ?_ ?_
  · intro t ht u hu
    simp only [mseTasks, List.mem_flatMap, List.mem_range, List.mem_singleton] at hu
    obtain ⟨j, hj, rfl⟩ := hu
    simp [submitMaxsumexp, task1, hid]
  · intro u hu
    obtain ⟨t, rfl, ht⟩ := h.tile hu
    have hsz := hd.2.size hu
    have hts := h.tshape t
    have hp : (dst.tshape (0 :: t)).prod = 2 * (dst.sl.tshape t).prod := by rw [hts]; simp
    have hwf := h.sl_wf hd.1
    have hmode : ∀ (m n k : Nat) (h1 h2 : Handle), (submitMaxsumexp m n k h1 h2 redux : Task1 XReal).mode ≠ .W := by
      intro m n k h1 h2
      cases redux <;> simp [submitMaxsumexp, task1]
    have key : ∀ j, j < src.grid.getD a 0 → ∃ w, AddsTo (MseRep (dst.sl.tshape t).prod) s (submitMaxsumexp
        (mOf (src.tshape (t.insertIdx a j)) a) (nOf (src.tshape (t.insertIdx a j)) a) (kOf (src.tshape (t.insertIdx a j)) a)
        (src.id, lin src.grid (t.insertIdx a j)) (dst.id, lin dst.grid (0 :: t)) redux) w := by
      intro j hj
      obtain ⟨X, hts', hz1, hz2, hk, hX, hv⟩ := slice_tile hsl hs ht hj hx
      have hu' := hsl.insert_inBox hs.1 ht hj
      have hax2 : a < (src.tshape (t.insertIdx a j)).length := by rw [hs.1.tshape_length hu']; exact h.axis
      have hXm : ∀ k, k < mOf (src.tshape (t.insertIdx a j)) a * (kOf (src.tshape (t.insertIdx a j)) a * nOf (src.tshape (t.insertIdx a j)) a) →
          (X k).NumOrMask := by
        intro k hk'
        have h1 := hX k hk'
        rw [← size3 hax2] at hk'
        have h2 := hx.data hs.1 hu' hk'
        rw [h1] at h2
        rw [Option.some.inj h2]
        exact hxm _ (hs.1.glob hu' (unlin_inBox (hs.1.tshape_pos hu') k)).1
      have hkp : 0 < kOf (src.tshape (t.insertIdx a j)) a := (hs.1.tshape_pos hu').getD hax2
      generalize mOf (src.tshape (t.insertIdx a j)) a = m at *
      generalize nOf (src.tshape (t.insertIdx a j)) a = n at *
      generalize kOf (src.tshape (t.insertIdx a j)) a = k at *
      refine ⟨fun c => ∑ i0 ∈ range k, Mse.of (X (c % m + m * (i0 + k * (c / m)))), ?_⟩
      rintro b g ⟨g1, g2⟩
      rw [hz1] at g1 g2
      obtain ⟨b', f1, f2, f3⟩ := maxsumexp_run hkp g1 hz2 hX hXm g2
      refine ⟨b', f1, by rw [f2, g1, hz1], fun c hc => ?_⟩
      rw [hz1] at hc
      refine ⟨(g2 c hc).1.add (Mse.valid_sum _ _), fun e he => ?_⟩
      obtain ⟨i1, i2, i3⟩ := cell2_split hc
      have := f3 e _ _ he i1 i2
      rwa [i3] at this
    simp only [mseTasks, List.tail_cons]
    rw [flatMap_single_cons hg0, hp]
    have hrest : ∀ j ∈ List.range (src.grid.getD a 0 - 1), ∃ w, AddsTo (MseRep (dst.sl.tshape t).prod) s (submitMaxsumexp
        (mOf (src.tshape (t.insertIdx a (j+1))) a) (nOf (src.tshape (t.insertIdx a (j+1))) a) (kOf (src.tshape (t.insertIdx a (j+1))) a)
        (src.id, lin src.grid (t.insertIdx a (j+1))) (dst.id, lin dst.grid (0 :: t)) redux) w := by
      intro j hj
      rw [List.mem_range] at hj
      exact key (j+1) (by omega)
    choose! w hw using hrest
    obtain ⟨w0, hw0⟩ := key 0 hg0
    have hrep : MseRep (dst.sl.tshape t).prod (s (dst.id, lin dst.grid (0 :: t)))
        (fun c => q (globIdx dst.sl.basetile t (unlin (dst.sl.tshape t) c))) := by
      refine ⟨by rw [hsz, hp], fun c hc => ⟨hq _, fun e he => ?_⟩⟩
      have hl := unlin_inBox (hwf.tshape_pos ht) c
      have hin : InBox (dst.tshape (0 :: t)) (e :: unlin (dst.sl.tshape t) c) := by rw [hts]; exact ⟨he, hl⟩
      have := hdq _ (hd.1.glob hu hin).1
      rw [hd.1.get_glob hu hin, h.glob, hts] at this
      simpa [lin, lin_unlin hc] using this
    refine ⟨Nat → Mse, inferInstance, MseRep (dst.sl.tshape t).prod, _, _, _, (List.range (src.grid.getD a 0 - 1)).map w, rfl,
      reduxMse_sound _, ?_, ?_, Or.inr ⟨hmode _ _ _ _ _, _, w0, hrep, hw0, rfl⟩, fun c c' h h' j hj => h.det h' hj⟩
    · intro u hu
      simp only [List.mem_map] at hu
      obtain ⟨j, -, rfl⟩ := hu
      exact hmode _ _ _ _ _
    · rw [List.forall₂_map_left_iff, List.forall₂_map_right_iff, List.forall₂_same]
      intro j hj
      exact hw j hj

end NNTile
