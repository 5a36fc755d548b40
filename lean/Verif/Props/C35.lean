import Verif.Lib.NetLinear
/-!
# C35: the layers satisfy the contract of parts of a network
-/
namespace NNTile
open Finset

/-- The activation layer computes the activation function and its derivative. -/
theorem C35_act {l : Act} (fit : l.Fits) (ids : l.toNet.ids.Nodup) : l.toNet.Correct := by
  obtain ⟨⟨-, xg1, xg2⟩, ⟨⟨y1, y2⟩, yg1, yg2⟩, hy⟩ := fit
  simp only [NetLayer.ids, Act.toNet, List.flatMap_cons, List.flatMap_nil, List.append_nil, List.map_nil, Moments.ids] at ids
  have hxy : l.x.value.id ≠ l.y.value.id := by
    intro e; simp [e] at ids
  have hxg : l.x.gradRequired = true → l.x.value.id ≠ l.x.grad.id ∧ l.y.grad.id ≠ l.x.grad.id := by
    intro hr
    simp only [Moments.gradIds, hr, hy, if_true] at ids
    constructor
    · intro e; simp [e] at ids
    · intro e; simp [e] at ids
  refine ⟨hy, by simp [Act.toNet], ?_, ?_, ?_, ?_, ?_, ?_⟩
  · intro env env' h
    have := h l.x (by simp [Act.toNet])
    simp only [Act.toNet, this]
  · intro _ _ _ _ _; trivial
  · intro env env' h hr hk I hI
    rw [← h l.x (by simp [Act.toNet])]
    exact hr hk I hI
  · intro _ _ _ _ _ _ _; trivial
  · intro s env _ hv hr
    have hx := hv l.x (by simp [Act.toNet])
    have hyr : l.y.value.Ready s := hr l.y.value (by simp [Act.toNet])
    have hlike : l.x.value.Like l.y.value := ⟨hxy, y1.symm, y2.symm⟩
    have : Computes l.forwardAsync s l.y.value (fun I => l.kind.spec (env l.x.value.id I)) := by
      unfold Act.forwardAsync
      cases l.kind with
      | relu => exact (C25_relu_forward hx.1 hyr hlike _ hx.2).single
      | gelutanh => exact (C25_gelutanh hx.1 hyr hlike _ hx.2).single
      | gelu => exact (C09_copy hx.1 hyr hlike _ hx.2).then fun s' _ hv hr => (C25_gelu hr _ hv).single
    refine this.runs.imp (by simp [Act.toNet]) ?_
    rintro s' _ ⟨h1, h2⟩
    exact ⟨h1, by simpa [AllReady, Act.toNet] using h2, trivial⟩
  · intro s env dy g0 hreg hv _ _ hdr hdy hg
    have hx := hv l.x (by simp [Act.toNet])
    have hdiff : ∀ I ∈ box l.x.value.shape, DifferentiableAt ℝ l.kind.spec (env l.x.value.id I) :=
      fun I hI => l.kind.diff fun hk => hreg hk I hI
    have : Runs (whenAsync l.x.gradRequired (match l.kind with
        | .relu => reluBackwardAsync l.x.value l.y.grad l.x.grad
        | .gelutanh => gelutanhBackwardAsync l.x.value l.y.grad l.x.grad
        | .gelu => geluBackwardAsync l.x.value l.y.grad l.x.grad)) s l.x.gradIds
        (fun s' => l.x.GradHolds s' (fun I => g0 l.x.value.id I + deriv l.kind.spec (env l.x.value.id I) * dy I)) := by
      refine Moments.when_runs fun hr => ?_
      obtain ⟨hgr, hgv⟩ := hg l.x (by simp [Act.toNet]) hr
      have hl1 : l.x.value.Like l.x.grad := ⟨(hxg hr).1, xg1.symm, xg2.symm⟩
      have hl2 : l.y.grad.Like l.x.grad := ⟨(hxg hr).2, by rw [yg1, xg1], by rw [yg2, xg2]⟩
      cases hk : l.kind with
      | relu =>
        refine (C25_relu_backward hx.1 hdr hgr hl1 hl2 _ _ _ hx.2 hdy hgv).congr fun I hI => ?_
        rw [xg1] at hI
        rw [if_neg (hreg hk I (mem_box.2 hI))]
        rfl
      | gelutanh => exact C25_gelutanh_backward hx.1 hdr hgr hl1 hl2 _ _ _ hx.2 hdy hgv
      | gelu => exact C25_gelu_backward hx.1 hdr hgr hl1 hl2 _ _ _ hx.2 hdy hgv
    refine Runs.cons' this (by simp [Act.toNet]) fun s' _ hq => Runs.nil ⟨by simp [AllReady, Act.toNet], fun _ J => deriv l.kind.spec (env l.x.value.id J) * dy J, ?_, ?_⟩
    · intro m hm
      obtain rfl : m = l.x := by simpa [Act.toNet] using hm
      exact hq
    · have := isVJP_elementwise (m := l.x) (dy := dy) hdiff
      simp only [Act.toNet, y1]
      exact this

/-- The addition layer adds two different tensors. -/
theorem C35_add {l : AddLayer} (fit : l.Fits) (ids : l.toNet.ids.Nodup) : l.toNet.Correct := by
  obtain ⟨⟨-, xg1, xg2⟩, ⟨⟨y1, y2⟩, yg1, yg2⟩, ⟨⟨r1, r2⟩, rg1, rg2⟩, hx, hy, hr⟩ := fit
  simp only [NetLayer.ids, AddLayer.toNet, List.flatMap_cons, List.flatMap_nil, List.append_nil, List.map_nil, Moments.ids, Moments.gradIds, hx, hy, hr, if_true,
    List.cons_append, List.nil_append, List.nodup_cons, List.mem_cons, List.not_mem_nil, or_false, not_or] at ids
  obtain ⟨⟨i1, i2, i3, i4, i5⟩, ⟨i6, i7, i8, i9⟩, ⟨i10, i11, i12⟩, ⟨i13, i14⟩, i15, -⟩ := ids
  refine ⟨hr, by simp [AddLayer.toNet, i2], ?_, ?_, ?_, ?_, ?_, ?_⟩
  · intro env env' h
    have h1 := h l.x (by simp [AddLayer.toNet])
    have h2 := h l.y (by simp [AddLayer.toNet])
    simp only [AddLayer.toNet, h1, h2]
  · intro _ _ _ _ _; trivial
  · intro _ _ _ _; trivial
  · intro _ _ _ _ _ _ _; trivial
  · intro s env _ hv hrd
    have vx := hv l.x (by simp [AddLayer.toNet])
    have vy := hv l.y (by simp [AddLayer.toNet])
    have hrr : l.res.value.Ready s := hrd l.res.value (by simp [AddLayer.toNet])
    have : Computes l.forwardAsync s l.res.value (fun I => env l.x.value.id I + env l.y.value.id I) := by
      refine (C09_copy vx.1 hrr ⟨i4, r1.symm, r2.symm⟩ _ vx.2).then fun s' hc hv hr => ?_
      have hyn : l.y.value.id ∉ [l.res.value.id] := by simpa using i11
      refine ((C11_add_partial (hc.ready vy.1 hyn) hr ⟨i11, by rw [y1, r1], by rw [y2, r2]⟩ 1 1 _ _ (hc.holds vy.2 hyn) (fun _ => hv) (by simp)).congr ?_).single
      intro I _; ring
    refine this.runs.imp (by simp [AddLayer.toNet]) ?_
    rintro s' _ ⟨h1, h2⟩
    exact ⟨h1, by simpa [AllReady, AddLayer.toNet] using h2, trivial⟩
  · intro s env dy g0 _ hv _ _ hdr hdy hg
    change l.res.grad.Ready s at hdr
    change l.res.grad.Holds s dy at hdy
    obtain ⟨gx1, gx2⟩ := hg l.x (by simp [AddLayer.toNet]) hx
    obtain ⟨gy1, gy2⟩ := hg l.y (by simp [AddLayer.toNet]) hy
    have h1 := (C11_add_partial hdr gx1 ⟨Ne.symm i9, by rw [rg1, xg1], by rw [rg2, xg2]⟩ 1 1 _ _ hdy (fun _ => gx2) (by simp))
    refine Runs.cons' h1.runs (by simp [AddLayer.toNet, Moments.gradIds, hx]) fun s1 c1 q1 => ?_
    have n1 : l.res.grad.id ∉ [l.x.grad.id] := by simpa using Ne.symm i9
    have n2 : l.y.grad.id ∉ [l.x.grad.id] := by simpa using Ne.symm i7
    have h2 := (C11_add_partial (c1.ready hdr n1) (c1.ready gy1 n2) ⟨Ne.symm i14, by rw [rg1, yg1], by rw [rg2, yg2]⟩ 1 1 _ _ (c1.holds hdy n1)
      (fun _ => c1.holds gy2 n2) (by simp))
    refine Runs.cons' h2.runs (by simp [AddLayer.toNet, Moments.gradIds, hy]) fun s2 c2 q2 => ?_
    have n3 : l.x.grad.id ∉ [l.y.grad.id] := by simpa using i7
    refine Runs.nil ⟨by simp [AllReady, AddLayer.toNet], fun _ => dy, ?_, ?_⟩
    · intro m hm _
      have hm : m = l.x ∨ m = l.y := by simpa [AddLayer.toNet] using hm
      rcases hm with rfl | rfl
      · refine ⟨c2.ready q1.2 n3, ?_⟩
        have := c2.holds q1.1 n3
        simpa [add_comm] using this
      · refine ⟨q2.2, ?_⟩
        simpa [add_comm] using q2.1
    · have := isVJP_add (m := l.x) (m' := l.y) i2 y1 (env := env) (dy := dy)
      simpa only [AddLayer.toNet, r1] using this

/-- The addition of a slice. -/
theorem C35_add_slice {l : AddSliceLayer} {a : Nat} (fit : l.Fits a) (ids : l.toNet.ids.Nodup) : l.toNet.Correct := by
  obtain ⟨hax, ⟨-, xg1, xg2⟩, ⟨⟨r1, r2⟩, rg1, rg2⟩, sl, slg, hx, hy, hr⟩ := fit
  simp only [NetLayer.ids, AddSliceLayer.toNet, List.flatMap_cons, List.flatMap_nil, List.append_nil, List.map_nil, Moments.ids, Moments.gradIds, hx, hy, hr, if_true,
    List.cons_append, List.nil_append, List.nodup_cons, List.mem_cons, List.not_mem_nil, or_false, not_or] at ids
  obtain ⟨⟨i1, i2, i3, i4, i5⟩, ⟨i6, i7, i8, i9⟩, ⟨i10, i11, i12⟩, ⟨i13, i14⟩, i15, -⟩ := ids
  have hat : l.axis.toNat = a := by rw [hax]; rfl
  refine ⟨hr, by simp [AddSliceLayer.toNet, i2], ?_, ?_, ?_, ?_, ?_, ?_⟩
  · intro env env' h
    have h1 := h l.x (by simp [AddSliceLayer.toNet])
    have h2 := h l.y (by simp [AddSliceLayer.toNet])
    simp only [AddSliceLayer.toNet, h1, h2]
  · intro _ _ _ _ _; trivial
  · intro _ _ _ _; trivial
  · intro _ _ _ _ _ _ _; trivial
  · intro s env _ hv hrd
    have vx := hv l.x (by simp [AddSliceLayer.toNet])
    have vy := hv l.y (by simp [AddSliceLayer.toNet])
    have hrr : l.u.value.Ready s := hrd l.u.value (by simp [AddSliceLayer.toNet])
    have : Computes l.forwardAsync s l.u.value (fun I => env l.x.value.id I + env l.y.value.id (I.eraseIdx l.axis.toNat)) := by
      refine (C09_copy vx.1 hrr ⟨i4, r1.symm, r2.symm⟩ _ vx.2).then fun s' hc hv hr => ?_
      have hyn : l.y.value.id ∉ [l.u.value.id] := by simpa using i11
      rw [hat, hax]
      refine ((C12_add_slice (hc.ready vy.1 hyn) hr i11 ⟨by rw [r1]; exact sl.axis, by rw [r1]; exact sl.shape, by rw [r2]; exact sl.basetile⟩ 1 1 _ _ (hc.holds vy.2 hyn)
        (fun _ => hv)).congr ?_).single
      intro I _; ring
    refine this.runs.imp (by simp [AddSliceLayer.toNet]) ?_
    rintro s' _ ⟨h1, h2⟩
    exact ⟨h1, by simpa [AllReady, AddSliceLayer.toNet] using h2, trivial⟩
  · intro s env dy g0 _ hv _ _ hdr hdy hg
    change l.u.grad.Ready s at hdr
    change l.u.grad.Holds s dy at hdy
    obtain ⟨gx1, gx2⟩ := hg l.x (by simp [AddSliceLayer.toNet]) hx
    obtain ⟨gy1, gy2⟩ := hg l.y (by simp [AddSliceLayer.toNet]) hy
    have h1 := (C11_add_partial hdr gx1 ⟨Ne.symm i9, by rw [rg1, xg1], by rw [rg2, xg2]⟩ 1 1 _ _ hdy (fun _ => gx2) (by simp))
    refine Runs.cons' h1.runs (by simp [AddSliceLayer.toNet, Moments.gradIds, hx]) fun s1 c1 q1 => ?_
    have n1 : l.u.grad.id ∉ [l.x.grad.id] := by simpa using Ne.symm i9
    have n2 : l.y.grad.id ∉ [l.x.grad.id] := by simpa using Ne.symm i7
    have h2 := (C14_sum_slice (c1.ready hdr n1) (c1.ready gy1 n2) (Ne.symm i14) ⟨by rw [rg1]; exact slg.axis, by rw [rg1]; exact slg.shape, by rw [rg2]; exact slg.basetile⟩
      1 1 l.redux _ _ (c1.holds hdy n1) (fun _ => c1.holds gy2 n2))
    rw [hax]
    refine Runs.cons' h2.runs (by simp [AddSliceLayer.toNet, Moments.gradIds, hy]) fun s2 c2 q2 => ?_
    have n3 : l.x.grad.id ∉ [l.y.grad.id] := by simpa using i7
    refine Runs.nil ⟨by simp [AllReady, AddSliceLayer.toNet],
      fun i J => if i = l.x.value.id then dy J else ∑ k ∈ range (l.x.value.shape.getD a 0), dy (J.insertIdx a k), ?_, ?_⟩
    · intro m hm _
      have hm : m = l.x ∨ m = l.y := by simpa [AddSliceLayer.toNet] using hm
      rcases hm with rfl | rfl
      · refine ⟨c2.ready q1.2 n3, ?_⟩
        have := c2.holds q1.1 n3
        simpa [add_comm] using this
      · refine ⟨q2.2, ?_⟩
        have := q2.1
        rw [rg1] at this
        simpa only [one_mul, if_neg (Ne.symm i2)] using this
    · have := isVJP_addSlice (m := l.x) (m' := l.y) sl.axis i2 sl.shape (env := env) (dy := dy)
      simpa only [AddSliceLayer.toNet, r1, hat] using this

/-- The embedding layer, for valid tokens. -/
theorem C35_embedding {l : EmbeddingLayer} {a : Nat} (fit : l.Fits a) (asIdx : ℝ → Int) (ids : (l.toNet asIdx).ids.Nodup) : (l.toNet asIdx).Correct := by
  obtain ⟨hax, f1, f2, sw, sy, hw, hy⟩ := fit
  simp only [NetLayer.ids, EmbeddingLayer.toNet, EmbeddingLayer.tokens, List.flatMap_cons, List.flatMap_nil, List.append_nil, List.map_nil, Moments.ids, Moments.gradIds, hw, hy, if_true,
    Bool.false_eq_true, if_false, List.cons_append, List.nil_append, List.nodup_cons, List.mem_cons, List.not_mem_nil, or_false, not_or] at ids
  obtain ⟨⟨i1, i2, i3, i4⟩, ⟨i5, i6, i7⟩, ⟨i8, i9⟩, i10, -⟩ := ids
  have hat : l.axis.toNat = a := by rw [hax]; rfl
  refine ⟨hy, by simp [EmbeddingLayer.toNet, EmbeddingLayer.tokens, i1], ?_, ?_, ?_, ?_, ?_, ?_⟩
  · intro env env' h
    have h1 := h l.tokens (by simp [EmbeddingLayer.toNet])
    have h2 := h l.w (by simp [EmbeddingLayer.toNet])
    simp only [EmbeddingLayer.tokens] at h1
    simp only [EmbeddingLayer.toNet, h1, h2]
  · intro _ _ _ _ _; trivial
  · intro env env' h hr
    have h1 := h l.tokens (by simp [EmbeddingLayer.toNet])
    simp only [EmbeddingLayer.tokens] at h1
    simp only [EmbeddingLayer.toNet, ← h1]
    exact hr
  · intro _ _ _ _ _ _ _; trivial
  · intro s env hval hv hrd
    have vx := hv l.tokens (by simp [EmbeddingLayer.toNet])
    change l.x.Ready s ∧ l.x.Holds s (env l.x.id) at vx
    have vw := hv l.w (by simp [EmbeddingLayer.toNet])
    have hyr : l.y.value.Ready s := hrd l.y.value (by simp [EmbeddingLayer.toNet])
    have : Computes (l.forwardAsync asIdx) s l.y.value
        (fun I => env l.w.value.id [I.getD l.axis.toNat 0, (asIdx (env l.x.id (I.eraseIdx l.axis.toNat))).toNat]) := by
      refine (C11_clear hyr).then fun s' hc _ hr => ?_
      rw [hat, hax]
      exact (C22_embedding asIdx (hc.ready vx.1 (by simpa using i3)) (hc.ready vw.1 (by simpa using i6)) hr i3 i6 f1 _ _
        (hc.holds vx.2 (by simpa using i3)) (hc.holds vw.2 (by simpa using i6)) hval).single
    refine this.runs.imp (by simp [EmbeddingLayer.toNet]) ?_
    rintro s' _ ⟨h1, h2⟩
    exact ⟨h1, by simpa [AllReady, EmbeddingLayer.toNet] using h2, trivial⟩
  · intro s env dy g0 hreg hv _ _ hdr hdy hg
    change l.y.grad.Ready s at hdr
    change l.y.grad.Holds s dy at hdy
    have vx := hv l.tokens (by simp [EmbeddingLayer.toNet])
    change l.x.Ready s ∧ l.x.Holds s (env l.x.id) at vx
    have vw := hv l.w (by simp [EmbeddingLayer.toNet])
    obtain ⟨gw1, gw2⟩ := hg l.w (by simp [EmbeddingLayer.toNet]) hw
    have h1 := C22_embedding_backward asIdx false vx.1 gw1 hdr i2 (Ne.symm i9) f2 _ _ _ vx.2 hdy gw2 (by intro J hJ; rw [sw]; exact hreg J hJ)
    simp only [EmbeddingLayer.toNet, EmbeddingLayer.backwardAsync, hax]
    refine Runs.cons' h1.runs (by simp [Moments.gradIds, hw]) fun s1 c1 q1 => ?_
    rw [sy] at q1
    refine Runs.nil ⟨by simp [AllReady], _, ?_, isVJP_embedding (m := l.tokens) (w := l.w) (e := l.y.value) asIdx rfl hw f1.ndim ?_⟩
    · intro m hm hmr
      have hm : m = l.tokens ∨ m = l.w := by simpa using hm
      rcases hm with rfl | rfl
      · simp [EmbeddingLayer.tokens] at hmr
      · exact ⟨q1.2, q1.1⟩
    · intro I hI
      obtain ⟨K, V, b, B, hs, hb, hK, -⟩ := f1.vocab_eq vw.1.1
      have h1 := hI.getD f1.index.axis
      have h2 := hreg (I.eraseIdx a) (by rw [f1.index.shape]; exact hI.erase a)
      rw [hs] at h2 ⊢
      simp only [List.getD_cons_succ, List.getD_cons_zero] at h2
      exact ⟨by simp only [Int.toNat_natCast]; omega, by simp only [EmbeddingLayer.tokens, Int.toNat_natCast]; omega, trivial⟩

/-- The linear layer. -/
theorem C35_linear {l : Linear} {M K N : List Nat} (fit : l.Fits M K N) (hy : l.y.gradRequired = true) (ids : l.toNet.ids.Nodup) : l.toNet.Correct := by
  obtain ⟨hK, hM⟩ := fit.dims
  have hids : ((l.x :: l.w :: l.b.toList).flatMap Moments.ids ++ l.y.ids).Nodup := by
    simpa only [NetLayer.ids, Linear.toNet, List.map_nil, List.append_nil] using ids
  rw [List.nodup_append] at hids
  obtain ⟨hins, -, hdis⟩ := hids
  have hgl : l.gradIds = (l.x :: l.w :: l.b.toList).flatMap Moments.gradIds := by
    simp [Linear.gradIds, List.flatMap_cons]
  have hvn := values_nodup hins
  have hmx : l.x ∈ l.x :: l.w :: l.b.toList := by simp
  have hmw : l.w ∈ l.x :: l.w :: l.b.toList := by simp
  have hmb : ∀ b ∈ l.b, b ∈ l.x :: l.w :: l.b.toList := by
    intro b hb
    rw [Option.mem_def] at hb
    simp [hb]
  have hney : ∀ m ∈ l.x :: l.w :: l.b.toList, m.value.id ≠ l.y.value.id := by
    intro m hm e
    exact hdis _ (List.mem_flatMap.2 ⟨m, hm, m.value_mem_ids⟩) _ l.y.value_mem_ids e
  have hnev : ∀ m ∈ l.x :: l.w :: l.b.toList, m.value.id ∉ l.gradIds := by
    intro m hm hi
    rw [hgl] at hi
    obtain ⟨m', hm', hi⟩ := List.mem_flatMap.1 hi
    exact value_not_gradIds hins hm hm' hi
  have hyg : l.y.grad.id ∉ l.gradIds := by
    intro hi
    rw [hgl] at hi
    exact hdis _ ((gradIds_sublist _).subset hi) _ (show l.y.grad.id ∈ l.y.ids by simp [Moments.ids, Moments.gradIds, hy]) rfl
  have hbias : ∀ env env' : Env, (∀ m ∈ l.toNet.ins, env m.value.id = env' m.value.id) → l.biasOf env = l.biasOf env' := by
    intro env env' h
    unfold Linear.biasOf
    cases hb : l.b with
    | none => rfl
    | some b => exact h b (by simp [Linear.toNet, hb])
  have hbiasSome : ∀ (env : Env), ∀ b ∈ l.b, l.biasOf env = env b.value.id := by
    intro env b hb
    rw [Option.mem_def] at hb
    simp [Linear.biasOf, hb]
  refine ⟨hy, hvn, ?_, ?_, ?_, ?_, ?_, ?_⟩
  · intro env env' h
    simp only [Linear.toNet]
    rw [h l.x hmx, h l.w hmw, hbias env env' h]
  · intro _ _ _ _ _; trivial
  · intro _ _ _ _; trivial
  · intro _ _ _ _ _ _ _; trivial
  · intro s env _ hv hrd
    have vx := hv l.x hmx
    have vw := hv l.w hmw
    have vb := fun b hb => hv b (hmb b hb)
    have := C33_linear_forward fit vx.1 vw.1 (hrd l.y.value (by simp [Linear.toNet])) (fun b hb => ⟨(vb b hb).1, hney b (hmb b hb)⟩) (hney _ hmx) (hney _ hmw)
      _ _ (l.biasOf env) vx.2 vw.2 (fun b hb => by rw [hbiasSome env b hb]; exact (vb b hb).2)
    have e : (if l.b.isSome then l.biasOf env else 0) = l.biasOf env := by
      unfold Linear.biasOf
      cases l.b <;> simp
    rw [e] at this
    refine this.runs.imp (by simp [Linear.toNet]) ?_
    rintro s' _ ⟨h1, h2⟩
    refine ⟨?_, by simpa [AllReady, Linear.toNet] using h2, trivial⟩
    simp only [Linear.toNet, hK, hM]
    exact h1
  · intro s env dy g0 _ hv _ _ hdr hdy hg
    change l.y.grad.Ready s at hdr
    change l.y.grad.Holds s dy at hdy
    have vx := hv l.x hmx
    have vw := hv l.w hmw
    have hwf : l.y.value.WF := by
      have := hdr.1
      have hgr := fit.grads l.y (by simp)
      unfold Tensor.WF at *
      rwa [hgr.1, hgr.2] at this
    have := C33_linear_backward fit vx.1 vw.1 hwf hdr (by rw [hgl]; exact hins.sublist (gradIds_sublist _)) (hnev _ hmx) (hnev _ hmw) hyg _ _ dy
      (g0 l.x.value.id) (g0 l.w.value.id) (l.biasOf g0) vx.2 vw.2 hdy (hg l.x hmx) (hg l.w hmw)
      (fun b hb => by rw [hbiasSome g0 b hb]; exact hg b (hmb b hb))
    refine this.imp (by simp [Linear.toNet, hgl]) ?_
    rintro s' _ ⟨gx, gw, gb, q1, q2, q3, q4⟩
    have hxw : l.w.value.id ≠ l.x.value.id := by
      rw [List.map_cons, List.nodup_cons, List.map_cons, List.mem_cons, not_or] at hvn
      exact Ne.symm hvn.1.1
    have hbx : ∀ b ∈ l.b, b.value.id ≠ l.x.value.id ∧ b.value.id ≠ l.w.value.id := by
      intro b hb
      rw [Option.mem_def] at hb
      rw [List.map_cons, List.nodup_cons, List.map_cons, List.nodup_cons] at hvn
      simp only [hb, Option.toList, List.map_cons, List.map_nil, List.mem_cons, List.not_mem_nil, or_false, not_or] at hvn
      exact ⟨Ne.symm hvn.1.2, Ne.symm hvn.2.1⟩
    have hcases : ∀ m ∈ l.x :: l.w :: l.b.toList, m = l.x ∨ m = l.w ∨ m ∈ l.b := by
      intro m hm
      simpa [Option.mem_toList] using hm
    let g : Env := fun i => if i = l.x.value.id then gx else if i = l.w.value.id then gw else gb
    have gX : g l.x.value.id = gx := if_pos rfl
    have gW : g l.w.value.id = gw := by simp only [g]; rw [if_neg hxw, if_pos trivial]
    have gB : ∀ b ∈ l.b, g b.value.id = gb := by
      intro b hb
      simp only [g]; rw [if_neg (hbx b hb).1, if_neg (hbx b hb).2]
    refine ⟨by simp [AllReady, Linear.toNet], g, ?_, ?_⟩
    · intro m hm
      rcases hcases m hm with rfl | rfl | hb
      · simp only [gX]; exact q1
      · simp only [gW]; exact q2
      · have := q3 m hb
        rw [hbiasSome g0 m hb] at this
        simp only [gB m hb]; exact this
    · have hsh := fit.shape
      let x := env l.x.value.id
      let w := env l.w.value.id
      let L : Nat → (List Nat → ℝ) → List Nat → ℝ := fun i h => if i = l.x.value.id then linearOut l.side l.transX M.length K h w (fun _ => 0)
        else if i = l.w.value.id then linearOut l.side l.transX M.length K x h (fun _ => 0)
        else linearOut l.side l.transX M.length K (fun _ => 0) (fun _ => 0) h
      have LX : L l.x.value.id = fun h => linearOut l.side l.transX M.length K h w (fun _ => 0) := by
        funext h; simp only [L]; rw [if_pos trivial]
      have LW : L l.w.value.id = fun h => linearOut l.side l.transX M.length K x h (fun _ => 0) := by
        funext h; simp only [L]; rw [if_neg hxw, if_pos trivial]
      have LB : ∀ b ∈ l.b, L b.value.id = fun h => linearOut l.side l.transX M.length K (fun _ => 0) (fun _ => 0) h := by
        intro b hb
        funext h; simp only [L]; rw [if_neg (hbx b hb).1, if_neg (hbx b hb).2]
      refine isVJP_of_isGrad hvn L ?_ ?_ ?_
      · intro m hm I _
        rcases hcases m hm with rfl | rfl | hb
        · rw [LX]; exact linearOut_zero_x ..
        · rw [LW]; exact linearOut_zero_w ..
        · rw [LB m hb]; exact linearOut_zero_w ..
      · intro c h hc I hI
        simp only [Linear.toNet] at hc hI ⊢
        rw [hK, hM]
        have dB : ∀ J ∈ box (l.side.biasDim M N), HasDerivAt (fun t => l.biasOf (c t) J)
            ((l.b.toList.map fun b => if b.gradRequired then h b.value.id J else 0).sum) 0 := by
          intro J hJ
          cases hb : l.b with
          | none => simpa [Linear.biasOf, hb] using hasDerivAt_const (0 : ℝ) (0 : ℝ)
          | some b =>
            have hbm : b ∈ l.b := by simp [hb]
            simp only [hbiasSome _ b hbm, Option.toList, List.map_cons, List.map_nil, List.sum_cons, List.sum_nil, add_zero]
            refine hc.deriv (hmb b hbm) ?_
            rw [(fit.bias b hbm).2.1]
            exact hJ
        have h1 := linearOut_deriv hsh (X := fun t => c t l.x.value.id) (W := fun t => c t l.w.value.id) (B := fun t => l.biasOf (c t))
          (fun J hJ => hc.deriv hmx hJ) (fun J hJ => hc.deriv hmw hJ) dB hI
        simp only [(hc l.x hmx).1, (hc l.w hmw).1] at h1
        refine h1.congr_deriv ?_
        simp only [List.map_cons, List.sum_cons, LX, LW]
        rw [add_assoc]
        congr 1
        · by_cases hr : l.x.gradRequired = true
          · simp only [hr, if_true]; rfl
          · simp only [hr, if_neg]; exact linearOut_zero_x ..
        · congr 1
          · by_cases hr : l.w.gradRequired = true
            · simp only [hr, if_true]; rfl
            · simp only [hr, if_neg]; exact linearOut_zero_w ..
          · cases hb : l.b with
            | none => simp only [Option.toList, List.map_nil, List.sum_nil]; exact linearOut_zero_w ..
            | some b =>
              have hbm : b ∈ l.b := by simp [hb]
              simp only [Option.toList, List.map_cons, List.map_nil, List.sum_cons, List.sum_nil, add_zero, LB b hbm]
              by_cases hr : b.gradRequired = true
              · simp only [hr, if_true]
              · simp only [hr, if_neg]; exact linearOut_zero_w ..
      · intro m hm hr
        have hq := q4 (l.biasOf env)
        simp only [Linear.toNet, hK, hM]
        rcases hcases m hm with rfl | rfl | hb
        · have e2 : ∀ z : List Nat → ℝ, l.biasOf (Function.update env l.x.value.id z) = l.biasOf env := by
            intro z
            unfold Linear.biasOf
            cases hb : l.b with
            | none => rfl
            | some b => exact Function.update_of_ne (hbx b (by simp [hb])).1 _ _
          simp only [Function.update_self, Function.update_of_ne hxw, e2, gX]
          exact hq.1 hr
        · have e2 : ∀ z : List Nat → ℝ, l.biasOf (Function.update env l.w.value.id z) = l.biasOf env := by
            intro z
            unfold Linear.biasOf
            cases hb : l.b with
            | none => rfl
            | some b => exact Function.update_of_ne (hbx b (by simp [hb])).2 _ _
          simp only [Function.update_self, Function.update_of_ne (Ne.symm hxw), e2, gW]
          exact hq.2.1 hr
        · simp only [hbiasSome _ m hb, Function.update_self, Function.update_of_ne (Ne.symm (hbx m hb).1), Function.update_of_ne (Ne.symm (hbx m hb).2), gB m hb]
          have := hq.2.2 m hb hr
          rwa [hbiasSome env m hb] at this

set_option maxHeartbeats 1000000 in
/-- The layer normalization; the gradients of its input and parameters have to be required (backward propagation computes all of them). -/
theorem C35_layer_norm {n : LayerNorm ℝ} {a : Nat} {eps : ℝ} (fit : n.Fits a eps) (invalidate : Bool)
    (hr : ∀ m ∈ [n.x, n.gamma, n.beta, n.y], m.gradRequired = true) (hx0 : n.x.value.WF) (ids : (n.toNet eps invalidate).ids.Nodup) :
    (n.toNet eps invalidate).Correct := by
  simp only [List.forall_mem_cons, List.not_mem_nil, IsEmpty.forall_iff, implies_true, and_true] at hr
  obtain ⟨rx, rg, rb, ry⟩ := hr
  have hids : [n.x.value.id, n.x.grad.id, n.gamma.value.id, n.gamma.grad.id, n.beta.value.id, n.beta.grad.id, n.y.value.id, n.y.grad.id,
      n.tmpYValue.id, n.tmpYGrad.id, n.mean.id, n.invStddev.id].Nodup := by
    simpa only [NetLayer.ids, LayerNorm.toNet, Moments.ids, Moments.gradIds, rx, rg, rb, ry, if_true, List.flatMap_cons, List.flatMap_nil, List.map_cons, List.map_nil,
      List.cons_append, List.nil_append, List.append_nil] using ids
  have hat : n.axis.toNat = a := by rw [fit.axis]; rfl
  have hfi : (n.forwardTensors.map Tensor.id).Nodup := by
    simp only [LayerNorm.forwardTensors, List.map_cons, List.map_nil, List.nodup_cons, List.mem_cons, List.not_mem_nil, or_false, not_or, not_false_eq_true, List.nodup_nil, and_true] at hids ⊢
    obtain ⟨⟨e0, e1, e2, e3, e4, e5, e6, e7, e8, e9, e10⟩, ⟨e11, e12, e13, e14, e15, e16, e17, e18, e19, e20⟩, ⟨e21, e22, e23, e24, e25, e26, e27, e28, e29⟩, ⟨e30, e31, e32, e33, e34, e35, e36, e37⟩, ⟨e38, e39, e40, e41, e42, e43, e44⟩, ⟨e45, e46, e47, e48, e49, e50⟩, ⟨e51, e52, e53, e54, e55⟩, ⟨e56, e57, e58, e59⟩, ⟨e60, e61, e62⟩, ⟨e63, e64⟩, e65⟩ := hids
    refine ⟨⟨?_, ?_, ?_, ?_, ?_, ?_⟩, ⟨?_, ?_, ?_, ?_, ?_⟩, ⟨?_, ?_, ?_, ?_⟩, ⟨?_, ?_, ?_⟩, ⟨?_, ?_⟩, ?_⟩ <;> first | assumption | exact Ne.symm (by assumption)
  have hbi : (n.backwardTensors.map Tensor.id).Nodup := by
    simp only [LayerNorm.backwardTensors, List.map_cons, List.map_nil, List.nodup_cons, List.mem_cons, List.not_mem_nil, or_false, not_or, not_false_eq_true, List.nodup_nil, and_true] at hids ⊢
    obtain ⟨⟨e0, e1, e2, e3, e4, e5, e6, e7, e8, e9, e10⟩, ⟨e11, e12, e13, e14, e15, e16, e17, e18, e19, e20⟩, ⟨e21, e22, e23, e24, e25, e26, e27, e28, e29⟩, ⟨e30, e31, e32, e33, e34, e35, e36, e37⟩, ⟨e38, e39, e40, e41, e42, e43, e44⟩, ⟨e45, e46, e47, e48, e49, e50⟩, ⟨e51, e52, e53, e54, e55⟩, ⟨e56, e57, e58, e59⟩, ⟨e60, e61, e62⟩, ⟨e63, e64⟩, e65⟩ := hids
    refine ⟨⟨?_, ?_, ?_, ?_, ?_, ?_, ?_, ?_⟩, ⟨?_, ?_, ?_, ?_, ?_, ?_, ?_⟩, ⟨?_, ?_, ?_, ?_, ?_, ?_⟩, ⟨?_, ?_, ?_, ?_, ?_⟩, ⟨?_, ?_, ?_, ?_⟩, ⟨?_, ?_, ?_⟩, ⟨?_, ?_⟩, ?_⟩ <;> first | assumption | exact Ne.symm (by assumption)
  simp only [List.nodup_cons, List.mem_cons, List.not_mem_nil, or_false, not_or, not_false_eq_true, List.nodup_nil, and_true] at hids
  obtain ⟨⟨e0, e1, e2, e3, e4, e5, e6, e7, e8, e9, e10⟩, ⟨e11, e12, e13, e14, e15, e16, e17, e18, e19, e20⟩, ⟨e21, e22, e23, e24, e25, e26, e27, e28, e29⟩, ⟨e30, e31, e32, e33, e34, e35, e36, e37⟩, ⟨e38, e39, e40, e41, e42, e43, e44⟩, ⟨e45, e46, e47, e48, e49, e50⟩, ⟨e51, e52, e53, e54, e55⟩, ⟨e56, e57, e58, e59⟩, ⟨e60, e61, e62⟩, ⟨e63, e64⟩, e65⟩ := hids
  have i1 : n.x.value.id ≠ n.gamma.value.id := by assumption
  have i2 : n.x.value.id ≠ n.beta.value.id := by assumption
  have i3 : n.gamma.value.id ≠ n.beta.value.id := by assumption
  have hvn : (([n.x, n.gamma, n.beta]).map fun m => m.value.id).Nodup := by simp [i1, i2, i3]
  have hcases : ∀ m ∈ [n.x, n.gamma, n.beta], m = n.x ∨ m = n.gamma ∨ m = n.beta := by
    intro m hm
    simpa using hm
  refine ⟨ry, hvn, ?_, ?_, ?_, ?_, ?_, ?_⟩
  · intro env env' h
    simp only [LayerNorm.toNet]
    rw [h n.x (by simp [LayerNorm.toNet]), h n.gamma (by simp [LayerNorm.toNet]), h n.beta (by simp [LayerNorm.toNet])]
  · intro env env' h s hs
    simp only [LayerNorm.toNet] at hs ⊢
    rw [← h n.x (by simp [LayerNorm.toNet])]
    exact hs
  · intro _ _ _ _; trivial
  · intro env s s' ids' hc hi hs
    simp only [LayerNorm.toNet] at hs hi ⊢
    exact ⟨hc.holds hs.1 (hi _ (by simp)), hc.holds hs.2 (hi _ (by simp))⟩
  · intro s env _ hv hrd
    have vx := hv n.x (by simp [LayerNorm.toNet])
    have vg := hv n.gamma (by simp [LayerNorm.toNet])
    have vb := hv n.beta (by simp [LayerNorm.toNet])
    simp only [LayerNorm.toNet, AllReady, List.forall_mem_cons, List.not_mem_nil, IsEmpty.forall_iff, implies_true, and_true] at hrd
    obtain ⟨r1, r2, r3, r4, r5⟩ := hrd
    have := C34_layer_norm_forward fit (s := s) (by
      simp only [LayerNorm.forwardTensors, List.forall_mem_cons, List.not_mem_nil, IsEmpty.forall_iff, implies_true, and_true]
      exact ⟨vx.1, r1, vg.1, vb.1, r2, r4, r5⟩) hfi _ _ _ vx.2 vg.2 vb.2
    refine this.imp (by simp [LayerNorm.toNet]) ?_
    rintro s' hc ⟨h1, h2, h3, h4⟩
    simp only [LayerNorm.forwardTensors, List.forall_mem_cons, List.not_mem_nil, IsEmpty.forall_iff, implies_true, and_true] at h4
    obtain ⟨-, q1, -, -, q2, q3, q4⟩ := h4
    simp only [LayerNorm.toNet, hat, AllReady, List.forall_mem_cons, List.not_mem_nil, IsEmpty.forall_iff, implies_true, and_true]
    refine ⟨h1, ⟨q1, q2, hc.ready r3 ?_, q3, q4⟩, h2, h3⟩
    simp only [List.mem_cons, List.not_mem_nil, or_false, not_or]
    refine ⟨?_, ?_, ?_, ?_⟩ <;> first | assumption | exact Ne.symm (by assumption)
  · intro s env dy g0 _ hv hsav htr hdr hdy hg
    have vx := hv n.x (by simp [LayerNorm.toNet])
    have vg := hv n.gamma (by simp [LayerNorm.toNet])
    obtain ⟨gx1, gx2⟩ := hg n.x (by simp [LayerNorm.toNet]) rx
    obtain ⟨gg1, gg2⟩ := hg n.gamma (by simp [LayerNorm.toNet]) rg
    obtain ⟨gb1, gb2⟩ := hg n.beta (by simp [LayerNorm.toNet]) rb
    simp only [LayerNorm.toNet, AllReady, List.forall_mem_cons, List.not_mem_nil, IsEmpty.forall_iff, implies_true, and_true] at htr
    obtain ⟨t1, t2, t3, t4⟩ := htr
    simp only [LayerNorm.toNet, hat] at hsav
    have := C34_layer_norm_backward fit invalidate (s := s) (by
      simp only [LayerNorm.backwardTensors, List.forall_mem_cons, List.not_mem_nil, IsEmpty.forall_iff, implies_true, and_true]
      exact ⟨hdr, gx1, vg.1, gg1, gb1, t1, t2, t3, t4⟩) hx0 hbi (env n.x.value.id) (env n.gamma.value.id) (env n.beta.value.id) dy _ _ _ hsav.1 hsav.2 vg.2 hdy gx2 gg2 gb2
    refine this.imp (by simp [LayerNorm.toNet, Moments.gradIds, rx, rg, rb]) ?_
    rintro s' hc ⟨gx, gg, gb, h1, h2, h3, d1, d2, d3, h4⟩
    simp only [LayerNorm.backwardTensors, List.forall_mem_cons, List.not_mem_nil, IsEmpty.forall_iff, implies_true, and_true] at h4
    obtain ⟨-, k1, -, k2, k3, k4, k5, k6, k7⟩ := h4
    let g : Env := fun i => if i = n.x.value.id then gx else if i = n.gamma.value.id then gg else gb
    have gX : g n.x.value.id = gx := if_pos rfl
    have gG : g n.gamma.value.id = gg := by simp only [g]; rw [if_neg (Ne.symm i1), if_pos trivial]
    have gB : g n.beta.value.id = gb := by simp only [g]; rw [if_neg (Ne.symm i2), if_neg (Ne.symm i3)]
    refine ⟨?_, g, ?_, ?_⟩
    · simp only [LayerNorm.toNet, AllReady, List.forall_mem_cons, List.not_mem_nil, IsEmpty.forall_iff, implies_true, and_true]
      exact ⟨k4, k5, k6, k7⟩
    · intro m hm _
      rcases hcases m hm with rfl | rfl | rfl
      · simp only [gX]; exact ⟨k1, h1⟩
      · simp only [gG]; exact ⟨k2, h2⟩
      · simp only [gB]; exact ⟨k3, h3⟩
    · have hys : n.y.value.shape = n.x.value.shape := (fit.same n.y.value (by simp)).1
      have hl := fit.l
      have hgs : n.gamma.value.shape = [n.x.value.shape.getD a 0] := by simpa using (fit.fiber n.gamma.value (by simp)).shape
      have hbs : n.beta.value.shape = [n.x.value.shape.getD a 0] := by simpa using (fit.fiber n.beta.value (by simp)).shape
      let L : Nat → (List Nat → ℝ) → List Nat → ℝ := fun i h I =>
        if i = n.x.value.id then env n.gamma.value.id [I.getD a 0] * lnHatD a n.l eps (env n.x.value.id) h I
        else if i = n.gamma.value.id then h [I.getD a 0] * lnHat a n.l eps (env n.x.value.id) I
        else h [I.getD a 0]
      have LX : ∀ h I, L n.x.value.id h I = env n.gamma.value.id [I.getD a 0] * lnHatD a n.l eps (env n.x.value.id) h I := by
        intro h I; simp only [L]; rw [if_pos trivial]
      have LG : ∀ h I, L n.gamma.value.id h I = h [I.getD a 0] * lnHat a n.l eps (env n.x.value.id) I := by
        intro h I; simp only [L]; rw [if_neg (Ne.symm i1), if_pos trivial]
      have LB : ∀ h I, L n.beta.value.id h I = h [I.getD a 0] := by
        intro h I; simp only [L]; rw [if_neg (Ne.symm i2), if_neg (Ne.symm i3)]
      refine isVJP_of_isGrad hvn L ?_ ?_ ?_
      · intro m hm I _
        rcases hcases m hm with rfl | rfl | rfl
        · rw [LX, lnHatD_zero, mul_zero]
        · rw [LG, zero_mul]
        · rw [LB]
      · intro c h hcv I hI
        simp only [LayerNorm.toNet, hat] at hcv hI ⊢
        rw [hys] at hI
        have hI1 : [I.getD a 0] ∈ box [n.x.value.shape.getD a 0] := by
          rw [mem_box]; simpa using (mem_box.1 hI).getD fit.lt
        have cx : ∀ J ∈ box n.x.value.shape, HasDerivAt (fun t => c t n.x.value.id J) (h n.x.value.id J) 0 := fun J hJ => by
          simpa [rx] using hcv.deriv (m := n.x) (by simp) hJ
        have cg : HasDerivAt (fun t => c t n.gamma.value.id [I.getD a 0]) (h n.gamma.value.id [I.getD a 0]) 0 := by
          have := hcv.deriv (m := n.gamma) (by simp) (J := [I.getD a 0]) (by rw [hgs]; exact hI1)
          rwa [if_pos rg] at this
        have cb : HasDerivAt (fun t => c t n.beta.value.id [I.getD a 0]) (h n.beta.value.id [I.getD a 0]) 0 := by
          have := hcv.deriv (m := n.beta) (by simp) (J := [I.getD a 0]) (by rw [hbs]; exact hI1)
          rwa [if_pos rb] at this
        have := (cg.fun_mul (lnHat_deriv fit.lt fit.pos cx hI)).fun_add cb
        simp only [lnOut, hl]
        refine this.congr_deriv ?_
        simp only [List.map_cons, List.map_nil, List.sum_cons, List.sum_nil, rx, rg, rb, if_true, LX, LG, LB, (hcv n.x (by simp)).1, (hcv n.gamma (by simp)).1, hl]
        ring
      · intro m hm _
        simp only [LayerNorm.toNet, hat]
        rcases hcases m hm with rfl | rfl | rfl
        · simp only [Function.update_self, Function.update_of_ne (Ne.symm i1), Function.update_of_ne (Ne.symm i2), gX]
          exact d1
        · simp only [Function.update_self, Function.update_of_ne i1, Function.update_of_ne (Ne.symm i3), gG]
          exact d2
        · simp only [Function.update_self, Function.update_of_ne i2, Function.update_of_ne i3, gB]
          exact d3

/-! ### Construction: the layers which `generate_simple` returns fit, and the new tensors get new, different identities -/

/-- `Act.generate_simple` succeeds exactly for the three known names. -/
theorem C35_act_generate {x : Moments} (hx : x.value.WF) (hg : x.grad.shape = x.value.shape ∧ x.grad.basetile = x.value.basetile) (name : String) (next : Nat) :
    (∀ k, (name, k) ∈ [("relu", ActKind.relu), ("gelu", .gelu), ("gelutanh", .gelutanh)] → ∃ l, Act.generate x name next = .ok l ∧ l.x = x ∧ l.kind = k ∧ l.Fits ∧
      l.y.value.WF ∧ l.y.grad.WF ∧ l.y.ids = [next, next + 1]) ∧
    (name ∉ ["relu", "gelu", "gelutanh"] → Throws (Act.generate x name next)) := by
  have e : Act.generate x name next = ActKind.ofName name >>= fun k =>
      .ok ⟨x, ⟨⟨next, x.value.shape, x.value.basetile⟩, ⟨next + 1, x.value.shape, x.value.basetile⟩, true⟩, k⟩ := by
    rw [Act.generate, newTensor_ok hx, M.bind_ok, newTensor_ok hx, M.bind_ok]
  rw [e]
  constructor
  · intro k hk
    have hk : ActKind.ofName name = .ok k := by
      simp only [List.mem_cons, Prod.mk.injEq, List.not_mem_nil, or_false] at hk
      rcases hk with ⟨rfl, rfl⟩ | ⟨rfl, rfl⟩ | ⟨rfl, rfl⟩ <;> simp [ActKind.ofName]
    rw [hk, M.bind_ok]
    exact ⟨_, rfl, rfl, rfl, ⟨⟨⟨rfl, rfl⟩, hg⟩, ⟨⟨rfl, rfl⟩, rfl, rfl⟩, rfl⟩, hx, hx, rfl⟩
  · intro h
    simp only [List.mem_cons, List.not_mem_nil, or_false, not_or] at h
    rw [ActKind.ofName, if_neg h.1, if_neg h.2.1, if_neg h.2.2]
    exact ⟨_, rfl⟩

theorem C35_add_generate {x y : Moments} (hx : x.value.WF) (hxg : x.SameAs x.value) (hyg : y.SameAs x.value) (rx : x.gradRequired = true) (ry : y.gradRequired = true)
    (next : Nat) : ∃ l, AddLayer.generate x y next = .ok l ∧ l.x = x ∧ l.y = y ∧ l.Fits ∧ l.res.value.WF ∧ l.res.grad.WF ∧ l.res.ids = [next, next + 1] := by
  have hy : y.value.WF := by
    obtain ⟨⟨h1, h2⟩, -⟩ := hyg
    rw [Tensor.WF, h1, h2]
    exact hx
  rw [AddLayer.generate, newTensor_ok hy, M.bind_ok, newTensor_ok hy, M.bind_ok]
  exact ⟨_, rfl, rfl, rfl, ⟨hxg, hyg, ⟨hyg.1, hyg.1⟩, rx, ry, rfl⟩, hy, hy, rfl⟩

theorem C35_add_slice_generate {x y : Moments} (hx : x.value.WF) (hxg : x.SameAs x.value) {a : Nat} (hy : y.value.SliceOf x.value a) (hyg : y.grad.SliceOf x.value a)
    (rx : x.gradRequired = true) (ry : y.gradRequired = true) (next : Nat) (redux : Bool) :
    ∃ l, AddSliceLayer.generate x y a next redux = .ok l ∧ l.x = x ∧ l.y = y ∧ l.axis = a ∧ l.Fits a ∧ l.u.value.WF ∧ l.u.grad.WF ∧ l.u.ids = [next, next + 1] := by
  rw [AddSliceLayer.generate, newTensor_ok hx, M.bind_ok, newTensor_ok hx, M.bind_ok]
  exact ⟨_, rfl, rfl, rfl, rfl, ⟨rfl, hxg, ⟨⟨rfl, rfl⟩, rfl, rfl⟩, hy, hyg, rx, ry, rfl⟩, hx, hx, rfl⟩

private theorem take_cons_drop (l : List Nat) {a : Nat} (ha : a ≤ l.length) (v : Nat) : l.take a ++ v :: l.drop a = l.insertIdx a v := by
  induction l generalizing a with
  | nil => obtain rfl : a = 0 := by simpa using ha
           rfl
  | cons b l ih =>
    cases a with
    | zero => rfl
    | succ a =>
      rw [List.take_succ_cons, List.drop_succ_cons, List.insertIdx_succ_cons, List.cons_append, ih (by simpa using ha)]

/-- `Embedding.generate_simple` for any place `a <= ndim` of the new dimension; it raises an exception if the tile of the output is not a multiple of that of the table,
or if a size is zero. -/
theorem C35_embedding_generate {x : Tensor} (hx : x.WF) {a : Nat} (ha : a ≤ x.ndim) (vocabSize embSize yTile wTile next : Nat) :
    (0 < vocabSize → 0 < embSize → 0 < yTile → 0 < wTile → wTile ∣ yTile → ∃ l, EmbeddingLayer.generate x a vocabSize embSize yTile wTile next = .ok l ∧ l.x = x ∧
      l.Fits a ∧ (∀ m ∈ [l.w, l.y], m.value.WF ∧ m.grad.WF) ∧ l.w.ids = [next, next + 1] ∧ l.y.ids = [next + 2, next + 3] ∧
      l.w.value.shape = [embSize, vocabSize] ∧ l.y.value.shape = x.shape.insertIdx a embSize ∧ l.y.value.basetile = x.basetile.insertIdx a yTile) ∧
    (¬ (0 < vocabSize ∧ 0 < embSize ∧ 0 < yTile ∧ 0 < wTile ∧ wTile ∣ yTile) → Throws (EmbeddingLayer.generate x a vocabSize embSize yTile wTile next)) := by
  have hins : ∀ {l : List Nat} {v}, l.length = x.ndim → pyInsert l a v = l.insertIdx a v := by
    intro l v hl
    have h1 : ¬ ((a : Int) < 0) := by omega
    simp only [pyInsert, if_neg h1, Int.toNat_natCast]
    rw [min_eq_left (by omega)]
    exact take_cons_drop l (by omega) v
  have hp : ∀ {l : List Nat} {v}, Pos l → 0 < v → Pos (l.insertIdx a v) := by
    intro l v h1 h2 n hn
    rcases List.eq_or_mem_of_mem_insertIdx hn with rfl | hn
    · exact h2
    · exact h1 n hn
  have hlen : ∀ {l : List Nat} {v}, l.length = x.ndim → (l.insertIdx a v).length = x.ndim + 1 := by
    intro l v hl
    rw [List.length_insertIdx_of_le_length (by omega), hl]
  unfold EmbeddingLayer.generate
  rw [hins rfl, hins hx.2.2]
  constructor
  · intro h1 h2 h3 h4 h5
    have hw : Pos [embSize, vocabSize] ∧ Pos [wTile, vocabSize] ∧ [wTile, vocabSize].length = [embSize, vocabSize].length := by simp [h1, h2, h4]
    have hy : Pos (x.shape.insertIdx a embSize) ∧ Pos (x.basetile.insertIdx a yTile) ∧
        (x.basetile.insertIdx a yTile).length = (x.shape.insertIdx a embSize).length := ⟨hp hx.1 h2, hp hx.2.1 h3, by rw [hlen rfl, hlen hx.2.2]⟩
    rw [throwIf_neg (by omega), M.bind_ok, throwIf_neg (by simpa using Nat.mod_eq_zero_of_dvd h5), M.bind_ok, newTensor_ok hw, M.bind_ok, newTensor_ok hw, M.bind_ok]
    simp only [newTensor_ok hy, M.bind_ok]
    have fit : ∀ i j, EmbedFit x ⟨i, [embSize, vocabSize], [wTile, vocabSize]⟩ ⟨j, x.shape.insertIdx a embSize, x.basetile.insertIdx a yTile⟩ a := by
      intro i j
      refine ⟨⟨?_, ?_, ?_⟩, rfl, ?_, le_refl _, ?_⟩
      · show a < (x.shape.insertIdx a embSize).length
        rw [hlen rfl]; omega
      · exact erase_insert.symm
      · exact erase_insert.symm
      · exact (getD_insert ha).symm
      · show wTile ∣ (x.basetile.insertIdx a yTile).getD a 0
        rw [getD_insert (by rw [hx.2.2]; exact ha)]
        exact h5
    exact ⟨_, rfl, rfl, ⟨rfl, fit .., fit .., rfl, rfl, rfl, rfl⟩, by simp only [List.forall_mem_cons, List.not_mem_nil, IsEmpty.forall_iff, implies_true, and_true]; exact ⟨⟨hw, hw⟩, hy, hy⟩, rfl, rfl, rfl, rfl, rfl⟩
  · intro h
    refine throws_step fun h1 => throws_step fun h2 => ?_
    by_cases hw : (Tensor.mk next [embSize, vocabSize] [wTile, vocabSize]).WF
    · rw [newTensor_ok hw, M.bind_ok, newTensor_ok hw, M.bind_ok]
      have hy : ¬ 0 < yTile := by
        intro h3
        refine h ⟨?_, ?_, h3, by omega, Nat.dvd_of_mod_eq_zero (by omega)⟩
        · exact hw.1 _ (by simp)
        · exact hw.1 _ (by simp)
      have : Throws (newTensor (next + 2) (x.shape.insertIdx a embSize) (x.basetile.insertIdx a yTile)) := by
        rw [newTensor]
        refine throws_pos fun hwf => hy ?_
        exact hwf.2.1 _ (List.mem_insertIdx (by rw [hx.2.2]; exact ha) |>.2 (.inl rfl))
      exact this.bind
    · have : Throws (newTensor next [embSize, vocabSize] [wTile, vocabSize]) := by
        rw [newTensor]
        exact throws_pos hw
      exact this.bind

/-! ### The hypotheses can be met -/

/-- GELU of a `5×7` tensor in tiles `2×3`: forward and backward propagation one after another. -/
example (x x0 dy : List Nat → ℝ) : ∃ s s' s'' : Store ℝ, ∃ t t', ∃ g : List Nat → ℝ,
    let l : Act := ⟨⟨⟨0, [5, 7], [2, 3]⟩, ⟨1, [5, 7], [2, 3]⟩, true⟩, ⟨⟨2, [5, 7], [2, 3]⟩, ⟨3, [5, 7], [2, 3]⟩, true⟩, .gelu⟩
    l.forwardAsync = .ok t ∧ runAll1 t s = .ok s' ∧ l.backwardAsync = .ok t' ∧ runAll1 t' s' = .ok s'' ∧ l.y.value.Holds s' (fun I => geluSpec (x I)) ∧
    l.x.grad.Holds s'' (fun I => x0 I + g I) := by
  let l : Act := ⟨⟨⟨0, [5, 7], [2, 3]⟩, ⟨1, [5, 7], [2, 3]⟩, true⟩, ⟨⟨2, [5, 7], [2, 3]⟩, ⟨3, [5, 7], [2, 3]⟩, true⟩, .gelu⟩
  have hl : l.toNet.Correct := C35_act (l := l) ⟨⟨⟨rfl, rfl⟩, rfl, rfl⟩, ⟨⟨rfl, rfl⟩, rfl, rfl⟩, rfl⟩ (by simp [l, NetLayer.ids, Act.toNet, Moments.ids, Moments.gradIds])
  have h := storeOf_spec [(l.x.value, x), (l.x.grad, x0), (l.y.value, fun _ => 0), (l.y.grad, dy)] (by simp [l, Tensor.WF]) (by simp [l])
  simp only [List.forall_mem_cons, List.not_mem_nil, IsEmpty.forall_iff, implies_true, and_true] at h
  obtain ⟨hx, hxg, hy, hyg⟩ := h
  generalize storeOf _ = s at hx hxg hy hyg
  have hin : ∀ {m}, m ∈ l.toNet.ins → m = l.x := fun hm => by simpa [Act.toNet] using hm
  have hout : ∀ {T}, T ∈ l.toNet.out.value :: l.toNet.temps → T = l.y.value := fun hm => by simpa [Act.toNet] using hm
  obtain ⟨t, s', e1, e2, c1, v1, -, -⟩ := hl.forward s (fun _ => x) trivial (fun m hm => by rw [hin hm]; exact hx) (fun T hT => by rw [hout hT]; exact hy.1)
  have k1 : ∀ {T : Tensor} {v}, T.id ∉ [2] → T.Ready s ∧ T.Holds s v → T.Ready s' ∧ T.Holds s' v := fun h hr => ⟨c1.ready hr.1 h, c1.holds hr.2 h⟩
  obtain ⟨t', s'', f1, f2, c2, -, g, q, -⟩ := hl.backward s' (fun _ => x) dy (fun _ => x0) (by intro h; cases h)
    (fun m hm => by rw [hin hm]; exact k1 (by decide) hx) trivial (by intro T hT; simp [Act.toNet] at hT) (k1 (by decide) hyg).1 (k1 (by decide) hyg).2
    (fun m hm _ => by rw [hin hm]; exact k1 (by decide) hxg)
  exact ⟨s, s', s'', t, t', g 0, e1, e2, f1, f2, v1, (q l.x (by simp [Act.toNet]) rfl).2⟩

/-- The layers returned by the generators satisfy the hypotheses of the theorems above. -/
example : ∃ l : AddLayer, l.toNet.Correct :=
  ⟨⟨⟨⟨0, [5, 7], [2, 3]⟩, ⟨1, [5, 7], [2, 3]⟩, true⟩, ⟨⟨2, [5, 7], [2, 3]⟩, ⟨3, [5, 7], [2, 3]⟩, true⟩, ⟨⟨4, [5, 7], [2, 3]⟩, ⟨5, [5, 7], [2, 3]⟩, true⟩⟩,
    C35_add (by simp [AddLayer.Fits, Moments.SameAs]) (by simp [NetLayer.ids, AddLayer.toNet, Moments.ids, Moments.gradIds])⟩

example : ∃ l : AddSliceLayer, l.axis = 1 ∧ l.toNet.Correct := by
  refine ⟨⟨⟨⟨0, [5, 7, 4], [2, 3, 4]⟩, ⟨1, [5, 7, 4], [2, 3, 4]⟩, true⟩, ⟨⟨2, [5, 4], [2, 4]⟩, ⟨3, [5, 4], [2, 4]⟩, true⟩, ⟨⟨4, [5, 7, 4], [2, 3, 4]⟩, ⟨5, [5, 7, 4], [2, 3, 4]⟩, true⟩, 1, true⟩,
    rfl, C35_add_slice (a := 1) ⟨rfl, by simp [Moments.SameAs], by simp [Moments.SameAs], ⟨by simp, rfl, rfl⟩, ⟨by simp, rfl, rfl⟩, rfl, rfl, rfl⟩ ?_⟩
  simp [NetLayer.ids, AddSliceLayer.toNet, Moments.ids, Moments.gradIds]

example (asIdx : ℝ → Int) : ∃ l : EmbeddingLayer, l.axis = 1 ∧ (l.toNet asIdx).Correct := by
  obtain ⟨l, -, hx, hf, -, h1, h2, -⟩ := (C35_embedding_generate (x := ⟨0, [5, 4], [2, 3]⟩) (by simp [Tensor.WF]) (a := 1) (by simp [Tensor.ndim]) 100 8 4 2 1).1
    (by decide) (by decide) (by decide) (by decide) (by decide)
  refine ⟨l, hf.1, C35_embedding hf asIdx ?_⟩
  have h0 : l.tokens.ids = [0] := by simp [EmbeddingLayer.tokens, Moments.ids, Moments.gradIds, hx]
  simp only [NetLayer.ids, EmbeddingLayer.toNet, List.flatMap_cons, List.flatMap_nil, h0, h1, h2]
  decide

example : ∃ l : Linear, l.toNet.Correct :=
  ⟨linearExample, C35_linear linearExample_fits rfl (by simp [NetLayer.ids, Linear.toNet, linearExample, Moments.ids, Moments.gradIds])⟩

example : ∃ l : LayerNorm ℝ, (l.toNet (1 / 100) true).Correct :=
  ⟨layerNormExample, C35_layer_norm layerNormExample_fits true (by simp [layerNormExample]) (by simp [layerNormExample, Tensor.WF])
    (by simp [NetLayer.ids, LayerNorm.toNet, layerNormExample, Moments.ids, Moments.gradIds])⟩

end NNTile
