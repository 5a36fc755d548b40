import Verif.Lib.MixerLayers
import Verif.Lib.Contract
/-!
# The layer `GAP`
-/
namespace NNTile
open Finset

theorem GapLayer.alpha_eq {l : GapLayer} {n b e : Nat} (h : l.x.value.shape = [n, b, e]) : (l.alpha : M ℝ) = .ok (1 / (n : ℝ)) := by
  have e : pyIndex l.x.value.shape 0 = .ok n := by rw [h, pyIndex, throwIf_neg (by simp), M.bind_ok]; rfl
  simp [GapLayer.alpha, e, M.bind_ok]

theorem sum_box3 (a b c : Nat) (F : List Nat → ℝ) : ∑ I ∈ box [a, b, c], F I = ∑ i ∈ range a, ∑ j ∈ range b, ∑ k ∈ range c, F [i, j, k] := by
  rw [sum_box_cons]
  exact sum_congr rfl fun i _ => sum_box2 b c _

/-- Gradient of the mean value. -/
theorem gap_vjp {l : GapLayer} {n b e : Nat} (h1 : l.x.value.shape = [n, b, e]) (h2 : l.y.value.shape = [e, b]) (hx : l.x.gradRequired = true) (env : Env) (dy : List Nat → ℝ) :
    IsVJP [l.x] l.y.value.shape l.toNet.F env dy (fun _ J => 1 / (n : ℝ) * dy ((J.eraseIdx 0).drop 1 ++ (J.eraseIdx 0).take 1)) := by
  intro c h hcv
  have hc := (hcv l.x (by simp)).2.1 hx
  rw [h1] at hc
  refine ⟨fun I => (∑ p ∈ range n, h l.x.value.id (p :: I.reverse)) / n, fun I hI => ?_, ?_⟩
  · show HasDerivAt (fun t => (∑ p ∈ range (l.x.value.shape.getD 0 0), c t l.x.value.id (p :: I.reverse)) / (l.x.value.shape.getD 0 0 : ℕ)) _ 0
    simp only [h1, List.getD_cons_zero]
    refine HasDerivAt.div_const (HasDerivAt.fun_sum fun p hp => hc _ ?_) _
    rw [h2] at hI
    obtain ⟨i, j, hi, hj, rfl⟩ := mem_box2 hI
    simp only [mem_box, List.reverse_cons, List.reverse_nil, List.nil_append, List.cons_append, InBox_cons, InBox_nil]
    exact ⟨mem_range.1 hp, hj, hi, trivial⟩
  · simp only [dotGrads, List.map_cons, List.map_nil, hx, if_true, List.sum_cons, List.sum_nil, add_zero]
    rw [h1, h2, sum_box2, sum_box3]
    simp only [List.eraseIdx_cons_zero, List.drop_succ_cons, List.drop_zero, List.take_succ_cons, List.take_zero, List.reverse_cons, List.reverse_nil, List.nil_append,
      List.cons_append]
    rw [sum_comm]
    conv_rhs => rw [sum_comm]
    refine sum_congr rfl fun j _ => ?_
    rw [sum_comm (s := range n)]
    refine sum_congr rfl fun k _ => ?_
    rw [sum_div, mul_sum]
    exact sum_congr rfl fun p _ => by ring

/-- The operations of backward propagation. -/
theorem gap_backward_runs {l : GapLayer} (fit : l.Fits) (ids : l.toNet.ids.Nodup) (beta : ℝ) {s : Store ℝ} {dy g0 : List Nat → ℝ} (ht : AllReady l.toNet.temps s)
    (hdr : l.y.grad.Ready s) (hdy : l.y.grad.Holds s dy) (hgr : l.x.grad.Ready s) (hg : l.x.grad.Holds s g0) :
    Runs (do
      let alpha ← l.alpha
      seqAsync [transposeAsync 1 l.y.grad l.yT.grad 1, addSliceAsync alpha l.yT.grad beta l.x.grad 0]) s (l.toNet.ins.flatMap Moments.gradIds ++ l.toNet.temps.map Tensor.id)
      (fun s' => AllReady l.toNet.temps s' ∧ l.y.grad.Ready s' ∧ l.x.grad.Ready s' ∧ l.x.grad.Holds s' (fun J =>
        beta * g0 J + 1 / (l.x.value.shape.getD 0 0 : ℕ) * dy ((J.eraseIdx 0).drop 1 ++ (J.eraseIdx 0).take 1))) := by
  obtain ⟨⟨n, b, e, sx, sT, sy⟩, ⟨n', b', e', bx, bT, by'⟩, hgs, rx, ry⟩ := fit
  simp only [List.forall_mem_cons, List.not_mem_nil, IsEmpty.forall_iff, implies_true, and_true] at hgs
  obtain ⟨⟨gx1, gx2⟩, ⟨gT1, gT2⟩, gy1, gy2⟩ := hgs
  simp only [NetLayer.ids, GapLayer.toNet, List.flatMap_cons, List.flatMap_nil, List.append_nil, List.map_nil, List.map_cons, Moments.ids, Moments.gradIds, rx, ry, if_true,
    List.cons_append, List.nil_append, List.nodup_cons, List.mem_cons, List.not_mem_nil, or_false, not_or] at ids
  obtain ⟨⟨i1, i2, i3, i4, i5⟩, ⟨i6, i7, i8, i9⟩, ⟨i10, i11, i12⟩, ⟨i13, i14⟩, i15, -⟩ := ids
  rw [GapLayer.alpha_eq sx, M.bind_ok]
  have hT : l.yT.grad.Ready s := ht _ (by simp [GapLayer.toNet])
  have hTv : l.yT.value.Ready s := ht _ (by simp [GapLayer.toNet])
  have h1 := transposeAsync_computes hdr hT i14 (nd := 1) ⟨by simp, by simp [gy1, sy], by simp [gT1, gy1, sT, sy], by simp [gT2, gy2, bT, by']⟩ 1 _ hdy
  refine Runs.cons' h1.runs (by simp [GapLayer.toNet]) ?_
  rintro s1 c1 ⟨p1, p2⟩
  have n1 : l.x.grad.id ∉ [l.yT.grad.id] := by simpa using i9
  have h2 := C12_add_slice (a := 0) p2 (c1.ready hgr n1) (Ne.symm i9) ⟨by simp [gx1, sx], by simp [gT1, gx1, sT, sx], by simp [gT2, gx2, bT, bx]⟩ (1 / (n : ℝ)) beta _ _ p1
    (fun _ => c1.holds hg n1)
  refine Runs.cons' h2.runs (by simp [GapLayer.toNet, Moments.gradIds, rx]) ?_
  rintro s2 c2 ⟨q1, q2⟩
  refine Runs.nil ⟨?_, ?_, q2, ?_⟩
  · intro T hTm
    simp only [GapLayer.toNet, List.mem_cons, List.not_mem_nil, or_false] at hTm
    rcases hTm with rfl | rfl
    · exact c2.ready (c1.ready hTv (by simpa using i15)) (by simpa using Ne.symm i8)
    · exact c2.ready p2 (by simpa using Ne.symm i9)
  · exact c2.ready (c1.ready hdr (by simpa using i14)) (by simpa using Ne.symm i7)
  · simpa [Tensor.ndim, gy1, sy, sx] using q1

/-- The layer whose gradient is added. -/
theorem gap_correct {l : GapLayer} (fit : l.Fits) (ids : l.toNet.ids.Nodup) : l.toNet.Correct := by
  have fit' := fit
  have ids' := ids
  obtain ⟨⟨n, b, e, sx, sT, sy⟩, ⟨n', b', e', bx, bT, by'⟩, hgs, rx, ry⟩ := fit
  simp only [NetLayer.ids, GapLayer.toNet, List.flatMap_cons, List.flatMap_nil, List.append_nil, List.map_nil, List.map_cons, Moments.ids, Moments.gradIds, rx, ry, if_true,
    List.cons_append, List.nil_append, List.nodup_cons, List.mem_cons, List.not_mem_nil, or_false, not_or] at ids
  obtain ⟨⟨i1, i2, i3, i4, i5⟩, ⟨i6, i7, i8, i9⟩, ⟨i10, i11, i12⟩, ⟨i13, i14⟩, i15, -⟩ := ids
  refine ⟨ry, by simp [GapLayer.toNet], ?_, ?_, ?_, ?_, ?_, ?_⟩
  · intro env env' h
    have := h l.x (by simp [GapLayer.toNet])
    simp only [GapLayer.toNet, this]
  · intro _ _ _ _ _; trivial
  · intro _ _ _ _; trivial
  · intro _ _ _ _ _ _ _; trivial
  · intro s env _ hv hr
    have hx := hv l.x (by simp [GapLayer.toNet])
    have hy : l.y.value.Ready s := hr l.y.value (by simp [GapLayer.toNet])
    have hT : l.yT.value.Ready s := hr l.yT.value (by simp [GapLayer.toNet])
    have hTg : l.yT.grad.Ready s := hr l.yT.grad (by simp [GapLayer.toNet])
    show Runs l.forwardAsync s _ _
    rw [GapLayer.forwardAsync, GapLayer.alpha_eq sx, M.bind_ok]
    have h1 := C14_sum_slice (a := 0) hx.1 hT i4 ⟨by simp [sx], by simp [sT, sx], by simp [bT, bx]⟩ (1 / (n : ℝ)) 0 false _ (fun _ => 0) hx.2 (by simp)
    refine Runs.cons' h1.runs (by simp [GapLayer.toNet]) ?_
    rintro s1 c1 ⟨p1, p2⟩
    have h2 := transposeAsync_computes p2 (c1.ready hy (by simpa using i11)) (Ne.symm i11) (nd := 1) ⟨by simp, by simp [sT], by simp [sT, sy], by simp [bT, by']⟩ 1 _ p1
    refine Runs.cons' (h2.congr (w := l.toNet.F env) ?_).runs (by simp [GapLayer.toNet]) ?_
    · intro I hI
      rw [sy] at hI
      obtain ⟨i, j, hi, hj, rfl⟩ := mem_box2 (mem_box.2 hI)
      simp [GapLayer.toNet, Tensor.ndim, sT, sx]
      ring
    rintro s2 c2 ⟨q1, q2⟩
    refine Runs.nil ⟨q1, ?_, trivial⟩
    intro T hTm
    simp only [GapLayer.toNet, List.mem_cons, List.not_mem_nil, or_false] at hTm
    rcases hTm with rfl | rfl | rfl
    · exact q2
    · exact c2.ready p2 (by simpa using Ne.symm i11)
    · exact c2.ready (c1.ready hTg (by simpa using Ne.symm i15)) (by simpa using Ne.symm i12)
  · intro s env dy g0 _ hv _ ht hdr hdy hg
    obtain ⟨gx1, gx2⟩ := hg l.x (by simp [GapLayer.toNet]) rx
    refine (gap_backward_runs fit' ids' 1 ht hdr hdy gx1 gx2).imp (fun _ h => h) ?_
    rintro s' _ ⟨q1, -, q3, q4⟩
    refine ⟨q1, fun _ J => 1 / (n : ℝ) * dy ((J.eraseIdx 0).drop 1 ++ (J.eraseIdx 0).take 1), ?_, gap_vjp sx sy rx env dy⟩
    intro m hm _
    obtain rfl : m = l.x := by simpa [GapLayer.toNet] using hm
    refine ⟨q3, ?_⟩
    simpa [sx] using q4

/-- Backward propagation of the layer, which overwrites the gradient. -/
theorem gap_segBack {l : GapLayer} (fit : l.Fits) {given : List Moments} (ho : Ordered given [l.toNet]) (hn : (netIds given [l.toNet]).Nodup) (ids : l.toNet.ids.Nodup) :
    SegBack [l.x.grad] given [l.toNet] l.backwardAsync := by
  intro s env G0 hv hs _ hg hz
  have fit' := fit
  obtain ⟨⟨n, b, e, sx, sT, sy⟩, ⟨n', b', e', bx, bT, by'⟩, hgs, rx, ry⟩ := fit
  have hxg : l.x ∈ given := ho.1 l.x (by simp [GapLayer.toNet])
  obtain ⟨gx1, gx2⟩ := hg l.x (by simp [hxg]) rx
  obtain ⟨gy1, gy2⟩ := hg l.y (by simp [GapLayer.toNet]) ry
  refine (gap_backward_runs fit' ids 0 (hs l.toNet (by simp)).2 gy1 gy2 gx1 gx2).imp (by simp [bwdIds]) ?_
  rintro s' c ⟨q1, q2, q3, q4⟩
  refine ⟨?_, fun i J => if i = l.x.value.id then 1 / (n : ℝ) * G0 l.y.value.id ((J.eraseIdx 0).drop 1 ++ (J.eraseIdx 0).take 1) else 0, ?_, ?_⟩
  · intro l' hl'
    obtain rfl := List.mem_singleton.1 hl'
    exact ⟨q1, q2⟩
  · have hall := (netIds_allMoments hn).1
    have htmp := (netIds_allMoments hn).2
    intro m hm
    by_cases e : m = l.x
    · subst e
      refine fun _ => ⟨q3, ?_⟩
      have hz' := hz l.x.grad (by simp)
      have e0 : ∀ J, InBox l.x.grad.shape J → G0 l.x.value.id J = 0 := by
        intro J hJ
        have h1 := gx2 J hJ
        have h2 := hz' J hJ
        rw [h1] at h2
        exact Option.some.inj h2
      intro J hJ
      rw [q4 J hJ]
      simp [e0 J hJ, sx]
    · have hne : m.value.id ≠ l.x.value.id := fun e' => e (ids_inj hall (List.mem_append_left _ hm) (List.mem_append_left _ hxg) m.value_mem_ids (e' ▸ l.x.value_mem_ids))
      show m.GradHolds s' (fun J => G0 m.value.id J + if m.value.id = l.x.value.id then _ else 0)
      simp only [if_neg hne, add_zero]
      refine (hg m (List.mem_append_left _ hm)).changed c fun i hi hj => ?_
      simp only [GapLayer.toNet, List.flatMap_cons, List.flatMap_nil, List.append_nil, List.mem_append] at hj
      rcases hj with hj | hj
      · exact e (ids_inj hall (List.mem_append_left _ hm) (List.mem_append_left _ hxg) (gradIds_subset hi) (gradIds_subset hj))
      · exact htmp l.toNet (by simp) i hj (List.mem_flatMap.2 ⟨m, List.mem_append_left _ hm, gradIds_subset hi⟩)
  · intro c' h hcv
    obtain ⟨D, hD, hS⟩ := gap_vjp sx sy rx env (G0 l.y.value.id) c' h (fun m hm => by
      obtain rfl := List.mem_singleton.1 hm
      exact hcv l.x hxg)
    refine ⟨fun _ => D, ?_, ?_⟩
    · intro l' hl' I hI
      obtain rfl := List.mem_singleton.1 hl'
      simp only [netEnv, Function.update_self]
      exact hD I hI
    · have hgn : (given.map fun m => m.value.id).Nodup := by
        have := values_nodup (netIds_allMoments hn).1
        rw [List.map_append, List.nodup_append] at this
        exact this.1
      have e2 := dotGrads_extend (given := given) (ins := [l.x]) (by simpa using hxg) hgn (by simp)
        (fun _ J => 1 / (n : ℝ) * G0 l.y.value.id ((J.eraseIdx 0).drop 1 ++ (J.eraseIdx 0).take 1)) h
      simp only [List.map_cons, List.map_nil, List.mem_singleton] at e2
      rw [e2, ← hS]
      simp [GapLayer.toNet]

end NNTile
