import Verif.Lib.ReduxSlice
import Verif.Lib.FiberReduce
/-!
# Executions with replicas: loops of fiber reductions
-/
namespace NNTile
open Finset

theorem range_filter_cons {n : Nat} {p : Nat → Bool} (h : ∃ i, i < n ∧ p i = true) :
    ∃ i0 rest, (List.range n).filter p = i0 :: rest ∧ (i0 < n ∧ p i0 = true ∧ ∀ i, i < i0 → p i = false) ∧
      ∀ i ∈ rest, i < n ∧ p i = true ∧ i0 < i := by
  obtain ⟨i, hi, hp⟩ := h
  have hs : ((List.range n).filter p).Pairwise (· < ·) := List.pairwise_lt_range.filter _
  have hm : i ∈ (List.range n).filter p := by simp [hi, hp]
  cases hl : (List.range n).filter p with
  | nil => rw [hl] at hm; simp at hm
  | cons i0 rest =>
    rw [hl] at hs
    have hc := List.pairwise_cons.1 hs
    have hmem : ∀ j, j ∈ i0 :: rest ↔ j < n ∧ p j = true := by
      intro j; rw [← hl]; simp
    have h0 := (hmem i0).1 (by simp)
    refine ⟨i0, rest, rfl, ⟨h0.1, h0.2, fun i hi => ?_⟩, fun i hi => ?_⟩
    · by_contra hcon
      have : i ∈ i0 :: rest := (hmem i).2 ⟨by omega, by simpa using hcon⟩
      rcases List.mem_cons.1 this with rfl | h
      · omega
      · have := hc.1 i h; omega
    · have h1 := (hmem i).1 (by simp [hi])
      exact ⟨h1.1, h1.2, hc.1 i hi⟩

theorem filter_flatMap_single {τ : Type} (l : List Nat) (f : Nat → τ) (q : τ → Bool) :
    (l.flatMap (fun i => [f i])).filter q = (l.filter (fun i => q (f i))).map f := by
  rw [← List.map_eq_flatMap, List.filter_map]
  rfl

/-- The loop of a fiber reduction. -/
theorem fiberLoop_redux {src dst : Tensor} {a b : Nat} {s : Store ℝ} (hs : src.WF) (hd : dst.Ready s) (h : dst.FiberOf src a b)
    {body : Nat → M (List (Task1 ℝ))} {v : List Nat → ℝ} (hC : Computes (forTasks src.ntiles body) s dst v) (task : List Nat → Task1 ℝ)
    (he : ∀ u, InBox src.grid u → body (lin src.grid u) = .ok [task u])
    (hout : ∀ u, InBox src.grid u → (task u).out = (dst.id, lin dst.grid (proj (fiberDims src.shape.length a b) u)) ∧ ∀ r ∈ (task u).reads, r.1 ≠ dst.id)
    (beta : ℝ) {redux : Bool} (hy : beta ≠ 0 → ∃ y, dst.Holds s y)
    (hmode : ∀ u, InBox src.grid u → (task u).mode = reduceMode (if initFirst u (src.ndim - b) a then beta else 1)
      (if initFirst u (src.ndim - b) a then false else redux))
    (haff : ∀ u, InBox src.grid u → ∃ W, Affine (dst.tshape (proj (fiberDims src.shape.length a b) u)).prod s (task u)
      (if initFirst u (src.ndim - b) a then beta else 1) W) :
    ComputesRedux reduxAdd (forTasks src.ntiles body) s dst v := by
  have hax := h.axis
  have hP := h.projOf hs
  have hok : forTasks src.ntiles body = .ok ((List.range src.ntiles).flatMap (fun i => [task (src.tindex i)])) := by
    apply forTasks_ok
    intro i hi
    rw [← he _ (src.tindex_inBox i), Tensor.lin_tindex hi]
  refine computesRedux_of_computes hd hC hok ?_ ?_ ?_
  · intro u hu
    simp only [List.mem_flatMap, List.mem_range, List.mem_singleton] at hu
    obtain ⟨i, hi, rfl⟩ := hu
    exact ⟨_, lin_lt (hP.tile_inBox hs (src.tindex_inBox i)), (hout _ (src.tindex_inBox i)).1⟩
  · intro u hu
    simp only [List.mem_flatMap, List.mem_range, List.mem_singleton] at hu
    obtain ⟨i, hi, rfl⟩ := hu
    exact (hout _ (src.tindex_inBox i)).2
  · intro t ht
    rw [filter_flatMap_single]
    have hiff : ∀ i, ((task (src.tindex i)).out = (dst.id, lin dst.grid t)) ↔ proj (fiberDims src.shape.length a b) (src.tindex i) = t := by
      intro i
      rw [(hout _ (src.tindex_inBox i)).1]
      constructor
      · intro e
        exact lin_inj (hP.tile_inBox hs (src.tindex_inBox i)) ht (by simpa using e)
      · intro e; rw [e]
    simp only [hiff]
    have hsome := fiber_some hs hd.1 h ht
    push Not at hsome
    obtain ⟨i0, rest, e, ⟨g1, g2, g3⟩, g4⟩ := range_filter_cons (n := src.ntiles)
      (p := fun i => decide (proj (fiberDims src.shape.length a b) (src.tindex i) = t)) (by
        obtain ⟨i, h1, h2⟩ := hsome
        exact ⟨i, h1, by simpa using h2⟩)
    simp only [decide_eq_true_eq, decide_eq_false_iff_not] at g2 g3 g4
    rw [e, List.map_cons]
    have hf0 : initFirst (src.tindex i0) (src.ndim - b) a = true := by
      rw [fiber_first hs (by omega) g1]
      intro i' hi' e'
      exact g3 i' hi' (e'.trans g2)
    have hfr : ∀ i ∈ rest, initFirst (src.tindex i) (src.ndim - b) a = false := by
      intro i hi
      obtain ⟨q1, q2, q3⟩ := g4 i hi
      rw [← Bool.not_eq_true, fiber_first hs (by omega) q1]
      intro hcon
      exact hcon i0 q3 (g2.trans q2.symm)
    have hm0 := hmode _ (src.tindex_inBox i0)
    have ha0 := haff _ (src.tindex_inBox i0)
    rw [hf0, g2] at ha0
    rw [hf0] at hm0
    simp only [if_true] at ha0 hm0
    refine reduces_sums (beta := beta) (r := false) (r' := redux) hm0 ha0 ?_ ?_ (hd.2.size ht) ?_
    · intro u hu
      simp only [List.mem_map] at hu
      obtain ⟨i, hi, rfl⟩ := hu
      rw [hmode _ (src.tindex_inBox i), hfr i hi]
      rfl
    · intro u hu
      simp only [List.mem_map] at hu
      obtain ⟨i, hi, rfl⟩ := hu
      have := haff _ (src.tindex_inBox i)
      rw [hfr i hi, (g4 i hi).2.1] at this
      simpa using this
    · intro hb
      obtain ⟨y, hy⟩ := hy hb
      exact (hy.full hd ht).2

end NNTile
