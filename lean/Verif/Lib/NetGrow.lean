import Verif.Lib.MixerGap
import Verif.Lib.Gpt2
/-!
# Networks which grow layer by layer
-/
namespace NNTile
open Finset

theorem moments_ids_nodup {given ins : List Moments} (h : (given.flatMap Moments.ids).Nodup) (hsub : ∀ m ∈ ins, m ∈ given)
    (hi : (ins.map fun m => m.value.id).Nodup) : (ins.flatMap Moments.ids).Nodup := by
  induction ins with
  | nil => simp
  | cons m L ih =>
    rw [List.map_cons, List.nodup_cons] at hi
    rw [List.flatMap_cons, List.nodup_append]
    refine ⟨(List.nodup_flatMap.1 h).1 m (hsub m (by simp)), ih (fun m' hm' => hsub m' (by simp [hm'])) hi.2, ?_⟩
    rintro i hi1 j hj rfl
    obtain ⟨m', hm', hj⟩ := List.mem_flatMap.1 hj
    have := ids_inj h (hsub m (by simp)) (hsub m' (by simp [hm'])) hi1 hj
    exact hi.1 (List.mem_map.2 ⟨m', hm', by rw [this]⟩)

/-- The layers form a network with the inputs `inputs` and the parameters `params`, the identities are smaller than `next`. -/
structure NGrown (inputs : List Moments) (nets : List NetLayer) (params : List Moments) (next : Nat) : Prop where
  correct : ∀ l ∈ nets, l.Correct
  order : Ordered (inputs ++ params) nets
  ids : (netIds (inputs ++ params) nets).Nodup
  below : ∀ i ∈ netIds (inputs ++ params) nets, i < next
  wf : ∀ m ∈ params ++ nets.map NetLayer.out, m.Usable ∧ m.gradRequired = true
  temps : ∀ l ∈ nets, ∀ T ∈ l.temps, T.WF
  valid : ∀ env, NetValid env nets
  regular : ∀ env, NetRegular env nets

variable {inputs params : List Moments} {nets : List NetLayer} {next : Nat}

theorem NGrown.init (hn : (inputs.flatMap Moments.ids).Nodup) (hb : ∀ i ∈ inputs.flatMap Moments.ids, i < next) : NGrown inputs [] [] next :=
  ⟨by simp, trivial, by simpa [netIds] using hn, by simpa [netIds] using hb, by simp, by simp, fun _ => trivial, fun _ => trivial⟩

theorem NGrown.add (h : NGrown inputs nets params next) {l : NetLayer} {ps : List Moments} {next' : Nat} (hc : l.ids.Nodup → l.Correct)
    (hins : ∀ m ∈ l.ins, m ∈ inputs ++ nets.map NetLayer.out ∨ m ∈ ps) (hop : (l.ins.map fun m => m.value.id).Nodup)
    (hnew : (ps.flatMap Moments.ids ++ (l.out.ids ++ l.temps.map Tensor.id)).Nodup)
    (hlo : ∀ i ∈ ps.flatMap Moments.ids ++ (l.out.ids ++ l.temps.map Tensor.id), next ≤ i ∧ i < next')
    (hwf : ∀ m ∈ ps ++ [l.out], m.Usable ∧ m.gradRequired = true) (ht : ∀ T ∈ l.temps, T.WF) (hv : ∀ env, l.Valid env ∧ l.Regular env) (hnext : next ≤ next') :
    NGrown inputs (nets ++ [l]) (params ++ ps) next' := by
  have e2 : inputs ++ (params ++ ps) = (inputs ++ params) ++ ps := by simp
  have hp := netIds_snoc (inputs ++ params) ps l nets
  have hins' : ∀ m ∈ l.ins, m ∈ inputs ++ params ++ ps ∨ m ∈ nets.map NetLayer.out := by
    intro m hm
    rcases hins m hm with h | h
    · rcases List.mem_append.1 h with h | h
      · exact .inl (by simp [h])
      · exact .inr h
    · exact .inl (by simp [h])
  have hord : Ordered (inputs ++ (params ++ ps)) (nets ++ [l]) := by
    rw [e2]
    exact (h.order.mono fun m hm => List.mem_append_left _ hm).snoc hins'
  have hids : (netIds (inputs ++ (params ++ ps)) (nets ++ [l])).Nodup := by
    rw [e2, hp.nodup_iff, List.nodup_append]
    refine ⟨h.ids, hnew, ?_⟩
    rintro i hi j hj rfl
    have := h.below i hi
    have := (hlo i hj).1
    omega
  have hlids : l.ids.Nodup := by
    obtain ⟨hB, -⟩ := netIds_append_right hids
    have hoL := ((Ordered_append nets [l] _).1 hord).2.1
    rw [netIds, List.nodup_append] at hB
    unfold NetLayer.ids
    simp only [List.flatMap_cons, List.flatMap_nil, List.append_nil] at hB
    rw [List.append_assoc, List.nodup_append]
    refine ⟨moments_ids_nodup hB.1 hoL hop, hB.2.1, ?_⟩
    intro i hi j hj
    obtain ⟨m, hm, hi⟩ := List.mem_flatMap.1 hi
    exact hB.2.2 i (List.mem_flatMap.2 ⟨m, hoL m hm, hi⟩) j hj
  refine ⟨?_, hord, hids, ?_, ?_, ?_, ?_, ?_⟩
  · intro l' hl'
    rcases List.mem_append.1 hl' with hl' | hl'
    · exact h.correct l' hl'
    · obtain rfl := List.mem_singleton.1 hl'
      exact hc hlids
  · rw [e2]
    intro i hi
    rcases List.mem_append.1 (hp.mem_iff.1 hi) with hi | hi
    · exact lt_of_lt_of_le (h.below i hi) hnext
    · exact (hlo i hi).2
  · intro m hm
    simp only [List.map_append, List.map_cons, List.map_nil, List.mem_append, List.mem_singleton] at hm
    rcases hm with (hm | hm) | hm | hm
    · exact h.wf m (List.mem_append_left _ hm)
    · exact hwf m (by simp [hm])
    · exact h.wf m (List.mem_append_right _ hm)
    · exact hwf m (by simp [hm])
  · intro l' hl'
    rcases List.mem_append.1 hl' with hl' | hl'
    · exact h.temps l' hl'
    · obtain rfl := List.mem_singleton.1 hl'
      exact ht
  · intro env
    rw [NetValid_snoc]
    exact ⟨h.valid env, (hv _).1⟩
  · intro env
    rw [NetRegular_snoc]
    exact ⟨h.regular env, (hv _).2⟩

theorem NGrown.fresh (h : NGrown inputs nets params next) (env : Env) {i : Nat} (hi : next ≤ i) : netEnv env nets i = env i := by
  refine netEnv_of_not_mem (fun l hl e => ?_) env
  have : l.out.value.id < next := h.below _ (List.mem_append_right _ (List.mem_flatMap.2 ⟨l, hl, by simp [Moments.ids]⟩))
  omega

theorem NGrown.lt (h : NGrown inputs nets params next) {m : Moments} (hm : m ∈ inputs ++ nets.map NetLayer.out) : ∀ i ∈ m.ids, i < next := by
  intro i hi
  refine h.below i ?_
  rcases List.mem_append.1 hm with hm | hm
  · exact List.mem_append_left _ (List.mem_flatMap.2 ⟨m, by simp [hm], hi⟩)
  · obtain ⟨l, hl, rfl⟩ := List.mem_map.1 hm
    exact List.mem_append_right _ (List.mem_flatMap.2 ⟨l, hl, by simp [hi]⟩)

/-- A residual connection, if there is one. -/
noncomputable def NetLayer.resOpt (l : NetLayer) : Option Moments → NetLayer
  | none => l
  | some x => l.withResidual x

theorem NGrown.inj (h : NGrown inputs nets params next) {m m' : Moments} (hm : m ∈ inputs ++ nets.map NetLayer.out) (hm' : m' ∈ inputs ++ nets.map NetLayer.out) {i : Nat}
    (hi : i ∈ m.ids) (hi' : i ∈ m'.ids) : m = m' := by
  have hall := (netIds_allMoments h.ids).1
  refine ids_inj hall ?_ ?_ hi hi'
  · simp only [List.mem_append] at hm ⊢
    tauto
  · simp only [List.mem_append] at hm' ⊢
    tauto

/-- A linear layer without bias, possibly with a residual connection. -/
theorem NGrown.linear (h : NGrown inputs nets params next) {x : Moments} (hxm : x ∈ inputs ++ nets.map NetLayer.out) (hx : x.Usable) (side : Side) (hnd : 1 ≤ x.value.ndim) {S B : Nat} (hS : 0 < S)
    (hB : 0 < B) (r : Option Moments)
    (hr : ∀ q ∈ r, q ∈ inputs ++ nets.map NetLayer.out ∧ q ≠ x ∧ q.Usable ∧ q.gradRequired = true ∧ q.value.shape = linearY side .noTrans 1 x.value.shape [S] ∧
      q.value.basetile = linearY side .noTrans 1 x.value.basetile [B]) :
    ∃ l : Linear, Linear.generate x side .noTrans 1 [S] [B] next false false = .ok l ∧ l.x = x ∧ l.b = none ∧ l.toNet.Correct ∧
      NGrown inputs (nets ++ [l.toNet.resOpt r]) (params ++ [l.w]) (next + 6) ∧ l.y.Usable ∧ l.y.gradRequired = true ∧ next ≤ l.y.value.id ∧
      l.y.value.shape = linearY side .noTrans 1 x.value.shape [S] ∧ l.y.value.basetile = linearY side .noTrans 1 x.value.basetile [B] ∧
      l.w.value.shape = linearW side .noTrans 1 x.value.shape [S] ∧
      ∀ env, netEnv env (nets ++ [l.toNet.resOpt r]) l.y.value.id = fun I =>
        linearOut side .noTrans (headDims side 1 x.value.shape [S]) (genK side .noTrans 1 x.value.shape) (netEnv env nets x.value.id) (env l.w.value.id) (fun _ => 0) I +
          r.elim 0 (fun q => netEnv env nets q.value.id I) := by
  have hSp : Pos [S] := by simpa [Pos] using hS
  have hBp : Pos [B] := by simpa [Pos] using hB
  obtain ⟨l, e, hlx, hls, hlt, hlb, ⟨Md, K, N, hfit⟩, hwf, hnd', hge⟩ :=
    C33_linear_generate hx.1 hx.2 side .noTrans (n := 1) (by omega) hnd hSp hBp rfl false (by simp) next false
  have e' := e
  rw [show ((1 : ℕ) : ℤ) = 1 from rfl] at e'
  rw [Linear.generate_eq hx.1 side .noTrans (n := 1) (by omega) hSp hBp rfl false (by simp) next false, Except.ok.injEq] at e
  have hlt' := h.lt hxm
  have hb : l.b = none := by subst e; rfl
  have rw1 : l.w.gradRequired = true := (hwf l.w (by simp)).2.2
  have ry1 : l.y.gradRequired = true := (hwf l.y (by simp)).2.2
  have uy : l.y.Usable := ⟨(hwf l.y (by simp)).1, by subst e; exact ⟨rfl, rfl⟩⟩
  have uw : l.w.Usable := ⟨(hwf l.w (by simp)).1, by subst e; exact ⟨rfl, rfl⟩⟩
  have iw : l.w.ids = [next, next + 1] := by subst e; rfl
  have iy : l.y.ids = [next + 4, next + 5] := by subst e; rfl
  have sy : l.y.value.shape = linearY side .noTrans 1 x.value.shape [S] := by subst e; rfl
  have ty : l.y.value.basetile = linearY side .noTrans 1 x.value.basetile [B] := by subst e; rfl
  have sw : l.w.value.shape = linearW side .noTrans 1 x.value.shape [S] := by subst e; rfl
  have vw : l.w.value.id = next := by subst e; rfl
  have vy : l.y.value.id = next + 4 := by subst e; rfl
  have hins : l.toNet.ins = [x, l.w] := by
    show l.x :: l.w :: l.b.toList = _
    rw [hb, hlx]; rfl
  have hlids : l.toNet.ids.Nodup := by
    have hout : l.toNet.out = l.y := rfl
    have htm : l.toNet.temps = [] := rfl
    have hxn : x.ids.Nodup := by
      have := (netIds_allMoments h.ids).1
      refine (List.nodup_flatMap.1 this).1 x ?_
      simp only [List.mem_append] at hxm ⊢
      tauto
    rw [NetLayer.ids, hins, hout, htm]
    simp only [List.flatMap_cons, List.flatMap_nil, iw, iy, List.map_nil, List.append_nil, List.append_assoc]
    rw [List.nodup_append]
    refine ⟨hxn, by simp, ?_⟩
    rintro i hi j hj rfl
    have := hlt' i hi
    simp only [List.cons_append, List.nil_append, List.mem_cons, List.not_mem_nil, or_false] at hj
    omega
  have hcor : l.toNet.Correct := C35_linear hfit ry1 hlids
  have hout : ∀ r, (l.toNet.resOpt r).out = l.y := by intro r; cases r <;> rfl
  have htmp : ∀ r, (l.toNet.resOpt r).temps = [] := by intro r; cases r <;> rfl
  refine ⟨l, e', hlx, hb, hcor, ?_, uy, ry1, by omega, sy, ty, sw, ?_⟩
  · refine h.add (l := l.toNet.resOpt r) ?_ ?_ ?_ ?_ ?_ ?_ (by simp [htmp]) ?_ (by omega)
    · intro hid
      cases r with
      | none => exact hcor
      | some q =>
        obtain ⟨q1, q2, q3, q4, q5, q6⟩ := hr q rfl
        refine residual_correct (l := l.toNet) hcor q4 ⟨q5.trans sy.symm, q6.trans ty.symm⟩ ⟨q3.2.1.trans (q5.trans sy.symm), q3.2.2.trans (q6.trans ty.symm)⟩ uy.2 ?_
        refine (List.Perm.nodup_iff ?_).2 hid
        rw [List.perm_iff_count]
        intro i
        simp only [NetLayer.resOpt, NetLayer.withResidual, NetLayer.ids, List.flatMap_append, List.flatMap_cons, List.flatMap_nil, List.count_append, List.count_nil]
        omega
    · intro m hm
      cases r with
      | none =>
        change m ∈ l.toNet.ins at hm
        rw [hins] at hm
        simp only [List.mem_cons, List.not_mem_nil, or_false] at hm
        rcases hm with rfl | rfl
        · exact .inl hxm
        · exact .inr (by simp)
      | some q =>
        change m ∈ l.toNet.ins ++ [q] at hm
        rw [hins] at hm
        simp only [List.cons_append, List.nil_append, List.mem_cons, List.not_mem_nil, or_false] at hm
        rcases hm with rfl | rfl | rfl
        · exact .inl hxm
        · exact .inr (by simp)
        · exact .inl (hr m rfl).1
    · have h0 : x.value.id < next := hlt' _ x.value_mem_ids
      cases r with
      | none =>
        show (l.toNet.ins.map fun m => m.value.id).Nodup
        rw [hins]
        simp [vw, Nat.ne_of_lt h0]
      | some q =>
        show ((l.toNet.ins ++ [q]).map fun m => m.value.id).Nodup
        obtain ⟨q1, q2, -⟩ := hr q rfl
        have h1 : q.value.id < next := h.lt q1 _ q.value_mem_ids
        have h2 : x.value.id ≠ q.value.id := fun e => q2 (h.inj q1 hxm (e ▸ q.value_mem_ids) x.value_mem_ids)
        rw [hins]
        simp [vw, Nat.ne_of_lt h0, h2, (Nat.ne_of_lt h1).symm]
    · rw [hout, htmp]
      simp [iw, iy]
    · rw [hout, htmp]
      simp [iw, iy]
    · rw [hout]
      simp [uy, uw, rw1, ry1]
    · intro env
      cases r <;> exact ⟨trivial, trivial⟩
  · intro env
    rw [netEnv_snoc, hout, Function.update_self]
    have hlen : (genK side .noTrans 1 x.value.shape).length = 1 := genK_length hnd
    have hdims : l.dimM = headDims side 1 x.value.shape [S] ∧ l.dimK = genK side .noTrans 1 x.value.shape := by
      simp only [Tensor.ndim] at hnd
      subst e
      cases side
      · simp only [Linear.dimM, Linear.dimK, linearY, linearW, headDims, genK, exceptLast, lastOf, Int.toNat_natCast, List.length_append, List.length_take,
          List.length_drop] at hlen ⊢
        refine ⟨by omega, ?_⟩
        rw [List.take_append_of_le_length (by rw [List.length_drop]; omega), List.take_of_length_le (by rw [List.length_drop]; omega)]
      · simp only [Linear.dimM, Linear.dimK, linearY, linearW, headDims, genK, exceptLast, lastOf, Int.toNat_natCast, List.length_append, List.length_take,
          List.length_drop] at hlen ⊢
        refine ⟨by omega, ?_⟩
        rw [List.drop_append_of_le_length (by omega), List.drop_of_length_le (by omega), List.nil_append]
    have hF : l.toNet.F (netEnv env nets) = linearOut side .noTrans (headDims side 1 x.value.shape [S]) (genK side .noTrans 1 x.value.shape) (netEnv env nets x.value.id) (env l.w.value.id) (fun _ => 0) := by
      show linearOut l.side l.transX l.dimM l.dimK _ _ (l.biasOf _) = _
      rw [hdims.1, hdims.2, hls, hlt, hlx, h.fresh env (by omega : next ≤ l.w.value.id)]
      congr 1
      unfold Linear.biasOf
      rw [hb]
      rfl
    funext I
    cases r with
    | none =>
      show l.toNet.F (netEnv env nets) I = _
      rw [hF]
      simp
    | some q =>
      show l.toNet.F (netEnv env nets) I + netEnv env nets q.value.id I = _
      rw [hF]
      rfl

/-- An activation function. -/
theorem NGrown.act (h : NGrown inputs nets params next) {x : Moments} (hxm : x ∈ inputs ++ nets.map NetLayer.out) (hx : x.Usable) :
    ∃ l : Act, Act.generate x "gelu" next = .ok l ∧ l.x = x ∧ l.toNet.Correct ∧ NGrown inputs (nets ++ [l.toNet]) params (next + 2) ∧ l.y.Usable ∧ l.y.gradRequired = true ∧
      next ≤ l.y.value.id ∧ l.y.value.shape = x.value.shape ∧ l.y.value.basetile = x.value.basetile ∧
      ∀ env, netEnv env (nets ++ [l.toNet]) l.y.value.id = fun I => geluSpec (netEnv env nets x.value.id I) := by
  obtain ⟨l, e, rfl, hk, hf, hw, hw', hid⟩ := (C35_act_generate hx.1 hx.2 "gelu" next).1 .gelu (by simp)
  obtain ⟨-, ⟨⟨y1, y2⟩, g1, g2⟩, hr⟩ := id hf
  have hus : l.y.Usable := ⟨hw, by rw [g1, y1], by rw [g2, y2]⟩
  have vy : l.y.value.id = next := by
    simp only [Moments.ids, List.cons.injEq] at hid
    exact hid.1
  have hg : NGrown inputs (nets ++ [l.toNet]) (params ++ []) (next + 2) := by
    refine h.add (l := l.toNet) (fun hid => C35_act hf hid) ?_ ?_ ?_ ?_ ?_ (by simp [Act.toNet]) ?_ (by omega)
    · intro m hm
      obtain rfl := List.mem_singleton.1 hm
      exact .inl hxm
    · simp [Act.toNet]
    · simp [Act.toNet, hid]
    · simp [Act.toNet, hid]
    · intro m hm
      obtain rfl := List.mem_singleton.1 hm
      exact ⟨hus, hr⟩
    · intro env
      refine ⟨trivial, fun hk' => ?_⟩
      rw [hk] at hk'
      cases hk'
  rw [List.append_nil] at hg
  refine ⟨l, e, rfl, hg.correct _ (by simp), hg, hus, hr, by omega, y1, y2, ?_⟩
  intro env
  rw [netEnv_snoc]
  show Function.update _ l.y.value.id _ _ = _
  rw [Function.update_self]
  show (fun I => l.kind.spec _) = _
  rw [hk]
  rfl

/-- A normalization. -/
theorem NGrown.layerNorm (h : NGrown inputs nets params next) (invalidate : Bool) {x : Moments} (hx : x ∈ inputs ++ nets.map NetLayer.out) (ux : x.Usable) (rx : x.gradRequired = true) {a : Nat}
    (ha : a < x.value.shape.length) {eps : ℝ} (he : 0 < eps) (redux : Bool) :
    ∃ (n : LayerNorm ℝ) (ts : List (Task1 ℝ)), LayerNorm.generate x a eps next redux = .ok (n, ts) ∧ n.x = x ∧ (n.toNet (n.eps ^ 2) invalidate).Correct ∧
      NGrown inputs (nets ++ [n.toNet (n.eps ^ 2) invalidate]) (params ++ [n.gamma, n.beta]) (next + 10) ∧ n.y.Usable ∧ n.y.gradRequired = true ∧ next ≤ n.y.value.id ∧
      n.y.value.shape = x.value.shape ∧ n.y.value.basetile = x.value.basetile ∧
      (∀ env, netEnv env (nets ++ [n.toNet (n.eps ^ 2) invalidate]) n.y.value.id = lnOut a (x.value.shape.getD a 0) eps (env n.gamma.value.id) (env n.beta.value.id) (netEnv env nets x.value.id)) ∧
      (n.gamma.value.shape = [x.value.shape.getD a 0] ∧ n.beta.value.shape = [x.value.shape.getD a 0]) ∧ LnInits ts [(n.gamma, n.beta)] := by
  obtain ⟨n, ts, e, rfl, fit, ⟨hnew, hnd⟩, hr, hts⟩ := C34_layer_norm_generate ux.1 ux.2 ha he next redux
  simp only [List.forall_mem_cons, List.not_mem_nil, IsEmpty.forall_iff, implies_true, and_true] at hnew hr
  obtain ⟨n1, n2, n3, n4, n5, n6, n7, n8, n9, n10⟩ := hnew
  obtain ⟨r1, r2, r3⟩ := hr
  have sm := fit.same
  have fb := fit.fiber
  simp only [List.forall_mem_cons, List.not_mem_nil, IsEmpty.forall_iff, implies_true, and_true] at sm fb
  obtain ⟨y1, y2, -, -, -⟩ := sm
  obtain ⟨g1, g2, g3, g4⟩ := fb
  have hx0 : n.x.value.id < next := h.lt hx _ (by simp [Moments.ids])
  have uy : n.y.Usable := ⟨n1.1, by rw [y2.1, y1.1], by rw [y2.2, y1.2]⟩
  have gi : ∀ m ∈ [n.y, n.gamma, n.beta], m.ids = [m.value.id, m.grad.id] := by
    intro m hm
    simp only [List.mem_cons, List.not_mem_nil, or_false] at hm
    rcases hm with rfl | rfl | rfl <;> simp [Moments.ids, Moments.gradIds, r1, r2, r3]
  have gi1 := gi n.y (by simp)
  have gi2 := gi n.gamma (by simp)
  have gi3 := gi n.beta (by simp)
  have eps2 : n.eps ^ 2 = eps := by
    rw [fit.eps, ← Real.sqrt_eq_rpow, Real.sq_sqrt fit.pos.le]
  have hg : NGrown inputs (nets ++ [n.toNet (n.eps ^ 2) invalidate]) (params ++ [n.gamma, n.beta]) (next + 10) := by
    refine h.add (l := n.toNet (n.eps ^ 2) invalidate) (fun hid => ?_) ?_ ?_ ?_ ?_ ?_ ?_ (fun _ => ⟨trivial, trivial⟩) (by omega)
    · rw [eps2] at hid ⊢
      exact C35_layer_norm fit invalidate (by simp [rx, r1, r2, r3]) ux.1 hid
    · intro m hm
      change m ∈ [n.x, n.gamma, n.beta] at hm
      rcases List.mem_cons.1 hm with rfl | hm
      · exact .inl hx
      · exact .inr hm
    · show ([n.x, n.gamma, n.beta].map fun m => m.value.id).Nodup
      have hgb : n.gamma.value.id ≠ n.beta.value.id := by
        have h3 := (List.nodup_cons.1 (List.nodup_cons.1 (List.nodup_cons.1 hnd).2).2).1
        intro e
        exact h3 (by simp [e])
      have h1 := n3.2.1
      have h2 := n5.2.1
      simp only [List.map_cons, List.map_nil, List.nodup_cons, List.mem_cons, List.not_mem_nil, or_false, not_or, not_false_eq_true, List.nodup_nil, and_true]
      exact ⟨⟨by omega, by omega⟩, hgb⟩
    · show (([n.gamma, n.beta].flatMap Moments.ids) ++ (n.y.ids ++ [n.tmpYValue, n.tmpYGrad, n.mean, n.invStddev].map Tensor.id)).Nodup
      refine (List.Perm.nodup_iff ?_).2 hnd
      rw [List.perm_iff_count]
      intro i
      simp only [List.flatMap_cons, List.flatMap_nil, gi1, gi2, gi3, List.map_cons, List.map_nil, List.cons_append, List.nil_append, List.count_cons, List.count_nil]
      omega
    · show ∀ i ∈ ([n.gamma, n.beta].flatMap Moments.ids) ++ (n.y.ids ++ [n.tmpYValue, n.tmpYGrad, n.mean, n.invStddev].map Tensor.id), _
      simp only [List.flatMap_cons, List.flatMap_nil, gi1, gi2, gi3, List.map_cons, List.map_nil, List.cons_append, List.nil_append, List.forall_mem_cons, List.not_mem_nil,
        IsEmpty.forall_iff, implies_true, and_true, n1.2, n2.2, n3.2, n4.2, n5.2, n6.2, n7.2, n8.2, n9.2, n10.2]
    · intro m hm
      change m ∈ [n.gamma, n.beta, n.y] at hm
      simp only [List.mem_cons, List.not_mem_nil, or_false] at hm
      rcases hm with rfl | rfl | rfl
      · exact ⟨⟨n3.1, by rw [g2.shape, g1.shape], by rw [g2.basetile, g1.basetile]⟩, r2⟩
      · exact ⟨⟨n5.1, by rw [g4.shape, g3.shape], by rw [g4.basetile, g3.basetile]⟩, r3⟩
      · exact ⟨uy, r1⟩
    · intro T hT
      change T ∈ [n.tmpYValue, n.tmpYGrad, n.mean, n.invStddev] at hT
      simp only [List.mem_cons, List.not_mem_nil, or_false] at hT
      rcases hT with rfl | rfl | rfl | rfl
      · exact n7.1
      · exact n8.1
      · exact n9.1
      · exact n10.1
  refine ⟨n, ts, e, rfl, hg.correct _ (by simp), hg, uy, r1, n1.2.1, y1.1, y1.2, ?_, ⟨by rw [g1.shape]; simp, by rw [g3.shape]; simp⟩, .of hts⟩
  intro env
  rw [netEnv_snoc]
  show Function.update _ n.y.value.id _ _ = _
  rw [Function.update_self]
  show lnOut n.axis.toNat n.l (n.eps ^ 2) (netEnv env _ n.gamma.value.id) (netEnv env _ n.beta.value.id) (netEnv env _ n.x.value.id) = _
  rw [eps2, fit.axis, fit.l, h.fresh env n3.2.1, h.fresh env n5.2.1]
  rfl

/-- The mean value. -/
theorem NGrown.gap (h : NGrown inputs nets params next) {x : Moments} (hxm : x ∈ inputs ++ nets.map NetLayer.out) (hx : x.Usable) (rx : x.gradRequired = true) {a b c a' b' c' : Nat}
    (hs : x.value.shape = [a, b, c]) (ht : x.value.basetile = [a', b', c']) :
    ∃ l : GapLayer, GapLayer.generate x next = .ok l ∧ l.x = x ∧ l.Fits ∧ l.toNet.Correct ∧ l.toNet.ids.Nodup ∧ NGrown inputs (nets ++ [l.toNet]) params (next + 4) ∧ l.y.Usable ∧
      l.y.gradRequired = true ∧ next ≤ l.y.value.id ∧ l.y.value.shape = [c, b] ∧ l.y.value.basetile = [c', b'] ∧
      ∀ env, netEnv env (nets ++ [l.toNet]) l.y.value.id = fun I => (∑ p ∈ range a, netEnv env nets x.value.id (p :: I.reverse)) / (a : ℕ) := by
  have hw := hx.1
  rw [Tensor.WF, hs, ht] at hw
  simp only [Pos, List.forall_mem_cons, List.not_mem_nil, IsEmpty.forall_iff, implies_true, and_true] at hw
  obtain ⟨⟨a0, b0, c0⟩, ⟨a1, b1, c1⟩, -⟩ := hw
  have d1 : ∀ l : List Nat, pyDrop l 1 = l.drop 1 := fun l => by simp [pyDrop]
  have hn1 : ∀ id, newTensor id [b, c] [b', c'] = .ok ⟨id, [b, c], [b', c']⟩ := fun id => newTensor_ok (by simp [Pos, b0, c0, b1, c1])
  have hn2 : ∀ id, newTensor id [c, b] [c', b'] = .ok ⟨id, [c, b], [c', b']⟩ := fun id => newTensor_ok (by simp [Pos, b0, c0, b1, c1])
  let l : GapLayer := ⟨x, ⟨⟨next + 2, [c, b], [c', b']⟩, ⟨next + 3, [c, b], [c', b']⟩, true⟩, ⟨⟨next, [b, c], [b', c']⟩, ⟨next + 1, [b, c], [b', c']⟩, true⟩⟩
  have hgen : GapLayer.generate x next = .ok l := by
    simp only [GapLayer.generate, d1, hs, ht, List.drop_succ_cons, List.drop_zero, List.reverse_cons, List.reverse_nil, List.nil_append, List.cons_append, hn1, hn2, M.bind_ok]
    rfl
  have hfit : l.Fits := by
    refine ⟨⟨a, b, c, hs, rfl, rfl⟩, ⟨a', b', c', ht, rfl, rfl⟩, ?_, rx, rfl⟩
    intro m hm
    simp only [List.mem_cons, List.not_mem_nil, or_false] at hm
    rcases hm with rfl | rfl | rfl
    · exact hx.2
    · exact ⟨rfl, rfl⟩
    · exact ⟨rfl, rfl⟩
  have hxi := h.lt hxm
  have hlids : l.toNet.ids.Nodup := by
    have hxn : x.ids.Nodup := by
      have := (netIds_allMoments h.ids).1
      refine (List.nodup_flatMap.1 this).1 x ?_
      simp only [List.mem_append] at hxm ⊢
      tauto
    show ([x].flatMap Moments.ids ++ [next + 2, next + 3] ++ [next, next + 1]).Nodup
    simp only [List.flatMap_cons, List.flatMap_nil, List.append_nil, List.append_assoc]
    rw [List.nodup_append]
    refine ⟨hxn, by simp, ?_⟩
    rintro i hi j hj rfl
    have := hxi i hi
    simp only [List.cons_append, List.nil_append, List.mem_cons, List.not_mem_nil, or_false] at hj
    omega
  have uy : l.y.Usable := ⟨by simp [l, Tensor.WF, Pos, b0, c0, b1, c1], rfl, rfl⟩
  have hg : NGrown inputs (nets ++ [l.toNet]) (params ++ []) (next + 4) := by
    refine h.add (l := l.toNet) (fun hid => gap_correct hfit hid) ?_ (by simp [GapLayer.toNet]) ?_ ?_ ?_ ?_ (fun _ => ⟨trivial, trivial⟩) (by omega)
    · intro m hm
      obtain rfl := List.mem_singleton.1 hm
      exact .inl hxm
    · show ([] ++ ([next + 2, next + 3] ++ [next, next + 1])).Nodup
      simp
    · show ∀ i ∈ ([] ++ ([next + 2, next + 3] ++ [next, next + 1])), _
      simp
    · intro m hm
      obtain rfl := List.mem_singleton.1 hm
      exact ⟨uy, rfl⟩
    · intro T hT
      change T ∈ [l.yT.value, l.yT.grad] at hT
      simp only [List.mem_cons, List.not_mem_nil, or_false] at hT
      rcases hT with rfl | rfl <;> simp [l, Tensor.WF, Pos, b0, c0, b1, c1]
  rw [List.append_nil] at hg
  refine ⟨l, hgen, rfl, hfit, hg.correct _ (by simp), hlids, hg, uy, rfl, by simp [l], rfl, rfl, ?_⟩
  intro env
  rw [netEnv_snoc]
  show Function.update _ l.y.value.id _ _ = _
  rw [Function.update_self]
  show (fun I => (∑ p ∈ range (x.value.shape.getD 0 0), _) / ((x.value.shape.getD 0 0 : ℕ) : ℝ)) = _
  rw [hs]
  rfl

end NNTile
