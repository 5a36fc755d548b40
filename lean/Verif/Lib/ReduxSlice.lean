import Verif.Lib.ReduxNorm
import Verif.Lib.Check
/-!
# Executions with replicas: loops of slice reductions
-/
namespace NNTile
open Finset
variable {src dst : Tensor} {a : Nat} {s : Store ℝ}

theorem slice_checks (hs : src.WF) (hd : dst.WF) (h : dst.SliceOf src a) :
    src.ndim = dst.ndim + 1 ∧ a < src.ndim ∧ checkErase src dst a = .ok () := by
  have hax := h.axis
  have hn : src.ndim = dst.ndim + 1 := by
    simp only [Tensor.ndim, h.shape, List.length_eraseIdx_of_lt h.axis]; omega
  exact ⟨hn, hax, (checkErase_check hs hd (a := a) h.axis hn).ok ⟨h.shape, h.basetile⟩⟩

/-- Sizes of the tiles of a slice reduction. -/
theorem slice_sizes (hs : src.WF) (h : dst.SliceOf src a) {t : List Nat} {j : Nat} (ht : InBox dst.grid t) (hj : j < src.grid.getD a 0) :
    InBox src.grid (t.insertIdx a j) ∧
    (dst.tshape t).prod = mOf (src.tshape (t.insertIdx a j)) a * nOf (src.tshape (t.insertIdx a j)) a ∧
    (src.tshape (t.insertIdx a j)).prod =
      mOf (src.tshape (t.insertIdx a j)) a * (kOf (src.tshape (t.insertIdx a j)) a * nOf (src.tshape (t.insertIdx a j)) a) := by
  have hu := h.insert_inBox hs ht hj
  have hax2 : a < (src.tshape (t.insertIdx a j)).length := by rw [hs.tshape_length hu]; exact h.axis
  have hts : dst.tshape t = (src.tshape (t.insertIdx a j)).eraseIdx a := by rw [← h.tshape hs hu, erase_insert]
  exact ⟨hu, by rw [hts, prod_erase]; rfl, size3 hax2⟩

theorem sliceLoop_redux {R : ReduxCl ℝ} (hs : src.WF) (hd : dst.Ready s) (h : dst.SliceOf src a) {beta : ℝ} {v : List Nat → ℝ}
    {submit : ℝ → List Nat → Handle → Nat → Handle → M (Task1 ℝ)} (hC : Computes (sliceReduceLoop src dst a beta submit) s dst v)
    (task : ℝ → List Nat → Task1 ℝ)
    (hsub : ∀ be u, InBox src.grid u → submit be (src.tshape u) (src.id, lin src.grid u) (lin src.grid u) (dst.id, lin dst.grid (u.eraseIdx a)) =
      .ok (task be u) ∧ (task be u).out = (dst.id, lin dst.grid (u.eraseIdx a)) ∧ ∀ r ∈ (task be u).reads, r.1 ≠ dst.id)
    (hred : ∀ t, InBox dst.grid t → Reduces R s (dst.tshape t).prod (s (dst.id, lin dst.grid t))
      (task beta (t.insertIdx a 0) :: (List.range (src.grid.getD a 0 - 1)).map (fun j => task 1 (t.insertIdx a (j+1))))) :
    ComputesRedux R (sliceReduceLoop src dst a beta submit) s dst v := by
  have hax := h.axis_grid hs
  have hg0 : 0 < src.grid.getD a 0 := (src.grid_pos).getD hax
  refine computesRedux_of_tiles hd hC (fun t => (List.range (src.grid.getD a 0)).flatMap (fun j => [task (if j = 0 then beta else 1) (t.insertIdx a j)]))
    (sliceReduceLoop_ok hs h task (fun be u hu => (hsub be u hu).1)) ?_ ?_
  · intro t ht u hu
    simp only [List.mem_flatMap, List.mem_range, List.mem_singleton] at hu
    obtain ⟨j, hj, rfl⟩ := hu
    have := (hsub (if j = 0 then beta else 1) _ (h.insert_inBox hs ht hj)).2
    rwa [erase_insert] at this
  · intro t ht
    have := hred t ht
    rw [flatMap_single_cons hg0 (fun j => task (if j = 0 then beta else 1) (t.insertIdx a j))]
    simpa using this

end NNTile
