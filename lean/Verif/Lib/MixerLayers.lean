import Verif.Spec.Mixer
import Verif.Lib.Segment
import Verif.Props.C35
import Verif.Props.C18
import Verif.Props.C14
/-!
# The parts of mixer layers
-/
namespace NNTile
open Finset

/-! ### Sequences -/

theorem seqAsync_append {α : Type} (p q : List (M (List (Task1 α)))) : seqAsync (p ++ q) = seqAsync [seqAsync p, seqAsync q] := by
  induction p with
  | nil =>
    simp only [List.nil_append, seqAsync, M.bind_ok]
    cases seqAsync q with
    | error e => rfl
    | ok t => simp only [M.bind_ok, List.append_nil, List.nil_append]
  | cons a p ih =>
    rw [List.cons_append]
    simp only [seqAsync] at ih ⊢
    rw [ih]
    cases a with
    | error e => rfl
    | ok ta =>
      simp only [M.bind_ok]
      cases seqAsync p with
      | error e => rfl
      | ok tp =>
        simp only [M.bind_ok]
        cases seqAsync q with
        | error e => rfl
        | ok tq => simp only [M.bind_ok, List.append_nil, List.append_assoc]

theorem seqAsync_one {α : Type} (p : M (List (Task1 α))) : seqAsync [p] = p := by
  cases p with
  | error e => rfl
  | ok t => simp only [seqAsync, M.bind_ok, List.append_nil]

theorem seqAsync_cons {α : Type} (p : M (List (Task1 α))) (q : List (M (List (Task1 α)))) : seqAsync (p :: q) = seqAsync [p, seqAsync q] := by
  have := seqAsync_append [p] q
  rwa [seqAsync_one] at this

/-- A method which calls methods. -/
theorem seqAsync_inner {α : Type} (p : List (M (List (Task1 α)))) (q : List (M (List (Task1 α)))) : seqAsync (seqAsync p :: q) = seqAsync (p ++ q) := by
  rw [seqAsync_append, seqAsync_cons]

/-! ### Residual connections -/

theorem residual_correct {l : NetLayer} {x : Moments} (hl : l.Correct) (hx : x.gradRequired = true) (hv : x.value.shape = l.out.value.shape ∧ x.value.basetile = l.out.value.basetile)
    (hg : x.grad.shape = l.out.value.shape ∧ x.grad.basetile = l.out.value.basetile) (ho : l.out.grad.shape = l.out.value.shape ∧ l.out.grad.basetile = l.out.value.basetile)
    (hids : (x.ids ++ l.ids).Nodup) : (l.withResidual x).Correct := by
  have hids' := hids
  rw [List.nodup_append] at hids
  obtain ⟨hxi, hli, hxl⟩ := hids
  have hxn : ∀ i ∈ x.ids, i ∉ l.ids := fun i hi hj => hxl i hi i hj rfl
  have hxv : x.value.id ∉ l.ids := hxn _ x.value_mem_ids
  have hxg : x.grad.id ∉ l.ids := hxn _ (by simp [Moments.ids, Moments.gradIds, hx])
  have hov : l.out.value.id ∈ l.ids := by simp [NetLayer.ids, Moments.ids]
  have hog : l.out.grad.id ∈ l.ids := by simp [NetLayer.ids, Moments.ids, Moments.gradIds, hl.required]
  have htm : ∀ T ∈ l.temps, T.id ∈ l.ids := fun T hT => by
    simp only [NetLayer.ids, List.mem_append]; exact .inr (List.mem_map_of_mem hT)
  have hin : ∀ m ∈ l.ins, ∀ i ∈ m.ids, i ∈ l.ids := fun m hm i hi => by
    simp only [NetLayer.ids, List.mem_append]; exact .inl (.inl (List.mem_flatMap.2 ⟨m, hm, hi⟩))
  have hli' := hli
  rw [NetLayer.ids, List.nodup_append, List.nodup_append] at hli
  obtain ⟨⟨n1, n2, n3⟩, n4, n5⟩ := hli
  have hovt : ∀ T ∈ l.temps, T.id ≠ l.out.value.id := by
    intro T hT e
    exact n5 l.out.value.id (List.mem_append_right _ l.out.value_mem_ids) T.id (List.mem_map_of_mem hT) e.symm
  have hogb : l.out.grad.id ∉ l.ins.flatMap Moments.gradIds ++ l.temps.map Tensor.id := by
    have hgi : l.out.grad.id ∈ l.out.ids := by simp [Moments.ids, Moments.gradIds, hl.required]
    intro hi
    rcases List.mem_append.1 hi with hi | hi
    · obtain ⟨m, hm, hi⟩ := List.mem_flatMap.1 hi
      exact n3 _ (List.mem_flatMap.2 ⟨m, hm, gradIds_subset hi⟩) _ hgi rfl
    · exact n5 _ (List.mem_append_right _ hgi) _ hi rfl
  have hxb : x.grad.id ∉ l.ins.flatMap Moments.gradIds ++ l.temps.map Tensor.id := by
    intro hi
    rcases List.mem_append.1 hi with hi | hi
    · obtain ⟨m, hm, hi⟩ := List.mem_flatMap.1 hi
      exact hxg (hin m hm _ (gradIds_subset hi))
    · obtain ⟨T, hT, e⟩ := List.mem_map.1 hi
      exact hxg (e ▸ htm T hT)
  refine ⟨hl.required, ?_, ?_, ?_, ?_, ?_, ?_, ?_⟩
  · show ((l.ins ++ [x]).map fun m => m.value.id).Nodup
    rw [List.map_append, List.nodup_append]
    refine ⟨hl.nodup, by simp, ?_⟩
    rintro i hi j hj rfl
    obtain ⟨m, hm, e⟩ := List.mem_map.1 hi
    simp only [List.map_cons, List.map_nil, List.mem_singleton] at hj
    exact hxv (hj ▸ e ▸ hin m hm _ m.value_mem_ids)
  · intro env env' h
    have h1 : l.F env = l.F env' := hl.localF _ _ fun m hm => h m (List.mem_append_left _ hm)
    have h2 := h x (List.mem_append_right _ (by simp))
    show (fun I => l.F env I + env x.value.id I) = fun I => l.F env' I + env' x.value.id I
    rw [h1, h2]
  · intro env env' h
    exact hl.localS _ _ fun m hm => h m (List.mem_append_left _ hm)
  · intro env env' h
    exact hl.localR _ _ fun m hm => h m (List.mem_append_left _ hm)
  · exact hl.keep
  · intro s env hval hvs hr
    have vx := hvs x (List.mem_append_right _ (by simp))
    refine Runs.cons' (hl.forward s env hval (fun m hm => hvs m (List.mem_append_left _ hm)) hr) (fun i hi => hi) ?_
    rintro s1 c1 ⟨q1, q2, q3⟩
    have hxc : x.value.id ∉ l.out.value.id :: l.temps.map Tensor.id := by
      intro hi
      rcases List.mem_cons.1 hi with e | hi
      · exact hxv (e ▸ hov)
      · obtain ⟨T, hT, e⟩ := List.mem_map.1 hi
        exact hxv (e ▸ htm T hT)
    have ha := C11_add_partial (c1.ready vx.1 hxc) (q2 l.out.value (by simp)) ⟨fun e => hxv (e ▸ hov), hv.1, hv.2⟩ 1 1 _ _ (c1.holds vx.2 hxc) (fun _ => q1) (by simp)
    refine Runs.cons' ha.runs (by simp [NetLayer.withResidual]) ?_
    rintro s2 c2 ⟨p1, p2⟩
    refine Runs.nil ⟨?_, ?_, hl.keep _ _ _ _ c2 (fun T hT => by simpa using hovt T hT) q3⟩
    · have e : (l.withResidual x).F env = fun I => 1 * env x.value.id I + 1 * l.F env I := by
        funext I
        show l.F env I + env x.value.id I = _
        ring
      rw [e]
      exact p1
    · intro T hT
      rcases List.mem_cons.1 hT with rfl | hT
      · exact p2
      · exact c2.ready (q2 T (List.mem_cons_of_mem _ hT)) (by simpa using hovt T hT)
  · intro s env dy g0 hreg hvs hsv hrd hdr hdy hgr
    change l.out.grad.Ready s at hdr
    change l.out.grad.Holds s dy at hdy
    obtain ⟨gx1, gx2⟩ := hgr x (List.mem_append_right _ (by simp)) hx
    refine Runs.cons' (hl.backward s env dy g0 hreg (fun m hm => hvs m (List.mem_append_left _ hm)) hsv hrd hdr hdy fun m hm => hgr m (List.mem_append_left _ hm)) ?_ ?_
    · intro i hi
      simp only [NetLayer.withResidual, List.flatMap_append, List.mem_append] at hi ⊢
      tauto
    rintro s1 c1 ⟨q1, g, q2, q3⟩
    have ha := C11_add_partial (c1.ready hdr hogb) (c1.ready gx1 hxb) ⟨fun e => hxg (e ▸ hog), by rw [ho.1]; exact hg.1.symm, by rw [ho.2]; exact hg.2.symm⟩ 1 1 _ _
      (c1.holds hdy hogb) (fun _ => c1.holds gx2 hxb) (by simp)
    refine Runs.cons' ha.runs (by simp [NetLayer.withResidual, Moments.gradIds, hx]) ?_
    rintro s2 c2 ⟨p1, p2⟩
    have hne : ∀ m ∈ l.ins, m.value.id ≠ x.value.id := fun m hm e => hxv (e ▸ hin m hm _ m.value_mem_ids)
    refine Runs.nil ⟨fun T hT => c2.ready (q1 T hT) ?_, Function.update g x.value.id dy, ?_, ?_⟩
    · intro hi
      exact hxg (List.mem_singleton.1 hi ▸ htm T hT)
    · intro m hm
      rcases List.mem_append.1 hm with hm | hm
      · simp only [Function.update_of_ne (hne m hm)]
        refine (q2 m hm).changed c2 fun i hi hj => ?_
        exact hxg (List.mem_singleton.1 hj ▸ hin m hm _ (gradIds_subset hi))
      · obtain rfl := List.mem_singleton.1 hm
        simp only [Function.update_self]
        have e : (fun J => g0 m.value.id J + dy J) = fun I => 1 * dy I + 1 * g0 m.value.id I := by
          funext J
          ring
        rw [e]
        exact fun _ => ⟨p2, p1⟩
    · intro c h hcv
      obtain ⟨D, hD, hS⟩ := q3 c h fun m hm => hcv m (List.mem_append_left _ hm)
      have hcx := hcv x (List.mem_append_right _ (by simp))
      refine ⟨fun I => D I + h x.value.id I, fun I hI => (hD I hI).fun_add (hcx.2.1 hx I (by rw [hv.1]; exact hI)), ?_⟩
      show ∑ I ∈ box l.out.value.shape, dy I * (D I + h x.value.id I) = dotGrads (l.ins ++ [x]) _ h
      rw [dotGrads, List.map_append, List.sum_append]
      have e1 : (l.ins.map fun m => if m.gradRequired = true then ∑ J ∈ box m.value.shape, Function.update g x.value.id dy m.value.id J * h m.value.id J else 0).sum =
          dotGrads l.ins g h := by
        show dotGrads l.ins (Function.update g x.value.id dy) h = _
        exact dotGrads_congr (fun m hm => Function.update_of_ne (hne m hm) _ _) fun _ _ => rfl
      rw [e1, ← hS]
      simp only [List.map_cons, List.map_nil, List.sum_cons, List.sum_nil, hx, if_true, add_zero, Function.update_self, hv.1, mul_add, sum_add_distrib]

/-- Backward propagation of all layers, then of the residual connection. -/
theorem residual_segBack {given : List Moments} {p : List NetLayer} {l : NetLayer} {x : Moments} (hc : ∀ l' ∈ p ++ [l], l'.Correct) (ho : Ordered given (p ++ [l]))
    (hn : (netIds given (p ++ [l])).Nodup) (hxg : x ∈ given) (hx : x.gradRequired = true) (hv : x.value.shape = l.out.value.shape)
    (hg : x.grad.shape = l.out.value.shape ∧ x.grad.basetile = l.out.value.basetile) (ho' : l.out.grad.shape = l.out.value.shape ∧ l.out.grad.basetile = l.out.value.basetile) :
    SegBack [] given (p ++ [l.withResidual x]) (seqAsync [netBackward (p ++ [l]), addAsync 1 l.out.grad 1 x.grad]) := by
  classical
  intro s env G0 hval hsav hreg hgr _
  obtain ⟨hoP, hoL⟩ := (Ordered_append p [l] given).1 ho
  have hlc := hc l (by simp)
  have hnP := netIds_append_left hn
  obtain ⟨hnL, hnT⟩ := netIds_append_right hn
  obtain ⟨hall, htmp⟩ := netIds_allMoments hn
  have hout : (p ++ [l.withResidual x]).map NetLayer.out = (p ++ [l]).map NetLayer.out := by simp [NetLayer.withResidual]
  have hgiv : ∀ m ∈ given ++ p.map NetLayer.out, m ∈ given ++ (p ++ [l]).map NetLayer.out := by
    intro m hm
    simp only [List.map_append, List.mem_append] at hm ⊢
    tauto
  have hlo : l.out ∈ given ++ (p ++ [l]).map NetLayer.out := by simp
  have hnv : ∀ m ∈ given ++ p.map NetLayer.out, m.value.id ≠ l.out.value.id := by
    intro m hm e
    have := values_nodup (netIds_allMoments hnL).1
    rw [List.map_append, List.nodup_append] at this
    exact this.2.2 _ (List.mem_map.2 ⟨m, hm, rfl⟩) _ (List.mem_map.2 ⟨l.out, by simp, rfl⟩) e
  have hinP : ∀ l' ∈ p, ∀ m ∈ l'.ins, m ∈ given ++ p.map NetLayer.out := hoP.ins_mem
  have hinL : ∀ m ∈ l.ins, m ∈ given ++ p.map NetLayer.out := hoL.1
  have henv : ∀ m ∈ given ++ p.map NetLayer.out, netEnv env (p ++ [l.withResidual x]) m.value.id = netEnv env (p ++ [l]) m.value.id := by
    intro m hm
    rw [netEnv_append, netEnv_append]
    show Function.update _ l.out.value.id _ _ = Function.update _ l.out.value.id _ _
    rw [Function.update_of_ne (hnv m hm), Function.update_of_ne (hnv m hm)]
  have hins : ∀ l' ∈ p ++ [l], ∀ m ∈ l'.ins, m ∈ given ++ p.map NetLayer.out := by
    intro l' hl'
    rcases List.mem_append.1 hl' with h | h
    · exact hinP l' h
    · obtain rfl := List.mem_singleton.1 h
      exact hinL
  have hval' : ∀ l' ∈ p ++ [l], ValuesHold l'.ins s (netEnv env (p ++ [l])) := by
    intro l' hl' m hm
    rw [← henv m (hins l' hl' m hm)]
    rcases List.mem_append.1 hl' with h | h
    · exact hval l' (List.mem_append_left _ h) m hm
    · obtain rfl := List.mem_singleton.1 h
      exact hval (l'.withResidual x) (by simp) m (List.mem_append_left _ hm)
  have hsav' : ∀ l' ∈ p ++ [l], l'.Saved (netEnv env (p ++ [l])) s ∧ AllReady l'.temps s := by
    intro l' hl'
    have hcl := hc l' hl'
    have : l'.Saved (netEnv env (p ++ [l.withResidual x])) s ∧ AllReady l'.temps s := by
      rcases List.mem_append.1 hl' with h | h
      · exact hsav l' (List.mem_append_left _ h)
      · obtain rfl := List.mem_singleton.1 h
        exact hsav (l'.withResidual x) (by simp)
    exact ⟨hcl.localS _ _ (fun m hm => henv m (hins l' hl' m hm)) _ this.1, this.2⟩
  have hreg' : NetRegular env (p ++ [l]) := by
    rw [NetRegular_append] at hreg ⊢
    exact ⟨hreg.1, hreg.2.1, trivial⟩
  rw [hout] at hgr
  have hyb : l.out.grad.id ∉ bwdIds (p ++ [l]) := by
    have hgi : l.out.grad.id ∈ l.out.ids := by simp [Moments.ids, Moments.gradIds, hlc.required]
    intro hi
    have hgi2 : l.out.grad.id ∈ [l].flatMap (fun l => l.out.ids ++ l.temps.map Tensor.id) := List.mem_flatMap.2 ⟨l, by simp, List.mem_append_left _ hgi⟩
    simp only [bwdIds, List.flatMap_append, List.flatMap_cons, List.flatMap_nil, List.append_nil, List.mem_append] at hi
    rcases hi with hi | hi | hi
    · exact (bwd_frame' (fun l' hl' => hc l' (List.mem_append_right _ hl')) hoP hn l (by simp)).1 hi
    · obtain ⟨m, hm, hi⟩ := List.mem_flatMap.1 hi
      rw [netIds, List.nodup_append] at hnL
      exact hnL.2.2 _ (List.mem_flatMap.2 ⟨m, hinL m hm, gradIds_subset hi⟩) _ hgi2 rfl
    · exact htmp l (by simp) _ hi (List.mem_flatMap.2 ⟨_, hlo, hgi⟩)
  have hyx : x.grad.id ≠ l.out.grad.id := by
    intro e
    rw [netIds, List.nodup_append] at hnL
    refine hnL.2.2 x.grad.id (List.mem_flatMap.2 ⟨x, List.mem_append_left _ hxg, by simp [Moments.ids, Moments.gradIds, hx]⟩) l.out.grad.id
      (List.mem_flatMap.2 ⟨l, by simp, List.mem_append_left _ (by simp [Moments.ids, Moments.gradIds, hlc.required])⟩) e
  have hsub : ∀ i ∈ bwdIds (p ++ [l]), i ∈ bwdIds (p ++ [l.withResidual x]) := by
    intro i hi
    simp only [bwdIds, List.flatMap_append, List.flatMap_cons, List.flatMap_nil, List.append_nil, List.mem_append, NetLayer.withResidual] at hi ⊢
    tauto
  have hxin : x.grad.id ∈ bwdIds (p ++ [l.withResidual x]) := by
    simp only [bwdIds, List.flatMap_append, List.flatMap_cons, List.flatMap_nil, List.append_nil, List.mem_append, NetLayer.withResidual, Moments.gradIds, hx, if_true,
      List.mem_singleton, true_or, or_true]
  refine Runs.cons' (net_backward_ins (p ++ [l]) given s env G0 hc ho hn hval' hsav' hreg' hgr) hsub ?_
  rintro s1 c1 ⟨q1, g, hg1, hvjp⟩
  obtain ⟨yr, yh⟩ := hgr l.out hlo hlc.required
  obtain ⟨xr, xh⟩ := hg1 x hxg hx
  have ha := C11_add_partial (c1.ready yr hyb) xr ⟨hyx.symm, by rw [ho'.1]; exact hg.1.symm, by rw [ho'.2]; exact hg.2.symm⟩ 1 1 _ _
    (c1.holds yh hyb) (fun _ => xh) (by simp)
  refine Runs.cons' ha.runs (by simpa using hxin) ?_
  rintro s2 c2 ⟨p1, p2⟩
  have hxl : x ∈ given ++ (p ++ [l]).map NetLayer.out := List.mem_append_left _ hxg
  refine Runs.nil ⟨?_, fun i J => g i J + if i = x.value.id then G0 l.out.value.id J else 0, ?_, ?_⟩
  · have : ∀ l' ∈ p ++ [l], AllReady l'.temps s2 ∧ l'.out.grad.Ready s2 := by
      intro l' hl'
      refine ⟨(q1 l' hl').1.changed c2 fun T hT hi => ?_, c2.ready (q1 l' hl').2 fun hi => ?_⟩
      · refine htmp l' hl' T.id (List.mem_map_of_mem hT) (List.mem_flatMap.2 ⟨x, hxl, ?_⟩)
        rw [List.mem_singleton.1 hi]
        simp [Moments.ids, Moments.gradIds, hx]
      · have e : l'.out = x := ids_inj hall (List.mem_append_right _ (List.mem_map_of_mem hl')) hxl (i := x.grad.id)
          (by rw [← List.mem_singleton.1 hi]; simp [Moments.ids, Moments.gradIds, (hc l' hl').required]) (by simp [Moments.ids, Moments.gradIds, hx])
        have := values_nodup hall
        rw [List.map_append, List.nodup_append] at this
        exact this.2.2 _ (List.mem_map.2 ⟨x, hxg, rfl⟩) _ (List.mem_map.2 ⟨l'.out, List.mem_map_of_mem hl', rfl⟩) (by rw [e])
    intro l' hl'
    rcases List.mem_append.1 hl' with h | h
    · exact this l' (List.mem_append_left _ h)
    · obtain rfl := List.mem_singleton.1 h
      exact this l (by simp)
  · intro m hm
    by_cases e : m = x
    · subst e
      have : (fun J => G0 m.value.id J + (g m.value.id J + if m.value.id = m.value.id then G0 l.out.value.id J else 0)) =
          fun J => 1 * G0 l.out.value.id J + 1 * (G0 m.value.id J + g m.value.id J) := by
        funext J
        rw [if_pos rfl]
        ring
      show m.GradHolds s2 (fun J => G0 m.value.id J + (g m.value.id J + if m.value.id = m.value.id then G0 l.out.value.id J else 0))
      rw [this]
      exact fun _ => ⟨p2, p1⟩
    · have hne : m.value.id ≠ x.value.id := fun e' => e (ids_inj hall (List.mem_append_left _ hm) hxl m.value_mem_ids (e' ▸ x.value_mem_ids))
      have : (fun J => G0 m.value.id J + (g m.value.id J + if m.value.id = x.value.id then G0 l.out.value.id J else 0)) =
          fun J => G0 m.value.id J + g m.value.id J := by
        funext J
        rw [if_neg hne, add_zero]
      show m.GradHolds s2 (fun J => G0 m.value.id J + (g m.value.id J + if m.value.id = x.value.id then G0 l.out.value.id J else 0))
      rw [this]
      refine (hg1 m hm).changed c2 fun i hi hj => e ?_
      refine ids_inj hall (List.mem_append_left _ hm) hxl (gradIds_subset hi) ?_
      rw [List.mem_singleton.1 hj]
      simp [Moments.ids, Moments.gradIds, hx]
  · intro c h hcv
    obtain ⟨D, hD, hS⟩ := hvjp c h hcv
    have hcx := (hcv x hxg).2.1 hx
    have hpl : ∀ l' ∈ p, l'.out.value.id ≠ l.out.value.id := fun l' hl' => hnv _ (List.mem_append_right _ (List.mem_map_of_mem hl'))
    refine ⟨fun i J => D i J + if i = l.out.value.id then h x.value.id J else 0, ?_, ?_⟩
    · intro l' hl' I hI
      have hsplit : ∀ (t : ℝ) (i : Nat), netEnv (c t) (p ++ [l.withResidual x]) i = fun J => netEnv (c t) (p ++ [l]) i J + if i = l.out.value.id then c t x.value.id J else 0 := by
        intro t i
        funext J
        rw [netEnv_append, netEnv_append]
        show Function.update (netEnv (c t) p) l.out.value.id ((l.withResidual x).F (netEnv (c t) p)) i J =
          Function.update (netEnv (c t) p) l.out.value.id (l.F (netEnv (c t) p)) i J + _
        by_cases e : i = l.out.value.id
        · rw [e, Function.update_self, Function.update_self, if_pos rfl]
          show l.F (netEnv (c t) p) J + netEnv (c t) p x.value.id J = _
          rw [netEnv_given hnP _ hxg]
        · rw [Function.update_of_ne e, Function.update_of_ne e, if_neg e, add_zero]
      simp only [hsplit]
      rcases List.mem_append.1 hl' with h' | h'
      · simp only [if_neg (hpl l' h'), add_zero]
        exact hD l' (List.mem_append_left _ h') I hI
      · obtain rfl := List.mem_singleton.1 h'
        show HasDerivAt (fun t => netEnv (c t) (p ++ [l]) l.out.value.id I + if l.out.value.id = l.out.value.id then c t x.value.id I else 0)
          (D l.out.value.id I + if l.out.value.id = l.out.value.id then h x.value.id I else 0) 0
        simp only [if_true]
        exact (hD l (by simp) I hI).fun_add (hcx I (by rw [hv]; exact hI))
    · have e1 : ((p ++ [l.withResidual x]).map fun l' => ∑ I ∈ box l'.out.value.shape, G0 l'.out.value.id I * (D l'.out.value.id I + if l'.out.value.id = l.out.value.id then h x.value.id I else 0)).sum =
          ((p ++ [l]).map fun l' => ∑ I ∈ box l'.out.value.shape, G0 l'.out.value.id I * D l'.out.value.id I).sum + ∑ I ∈ box x.value.shape, G0 l.out.value.id I * h x.value.id I := by
        rw [List.map_append, List.map_append, List.sum_append, List.sum_append]
        have : (p.map fun l' => ∑ I ∈ box l'.out.value.shape, G0 l'.out.value.id I * (D l'.out.value.id I + if l'.out.value.id = l.out.value.id then h x.value.id I else 0)) =
            p.map fun l' => ∑ I ∈ box l'.out.value.shape, G0 l'.out.value.id I * D l'.out.value.id I :=
          List.map_congr_left fun l' hl' => by simp only [if_neg (hpl l' hl'), add_zero]
        rw [this]
        simp only [List.map_cons, List.map_nil, List.sum_cons, List.sum_nil, add_zero, NetLayer.withResidual, if_true, mul_add, sum_add_distrib, hv, add_assoc]
      rw [e1, hS, dotGrads_add]
      congr 1
      have hgn : (given.map fun m => m.value.id).Nodup := by
        have := values_nodup hall
        rw [List.map_append, List.nodup_append] at this
        exact this.1
      have e2 := dotGrads_extend (given := given) (ins := [x]) (by simpa using hxg) hgn (by simp) (fun _ => G0 l.out.value.id) h
      simp only [List.map_cons, List.map_nil, List.mem_singleton] at e2
      rw [e2]
      simp [dotGrads, hx]

end NNTile
