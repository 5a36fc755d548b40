import Verif.Lib.DeepTorch
/-!
# C69: `DeepReLU.from_torch` gives a model which computes what the PyTorch MLP computes
-/
namespace NNTile
variable {asIdx : ℝ → Int} {invalidate bias : Bool} {q width C B next : Nat}

/-! ### Shapes of the parameters of both models -/

theorem lin_all3 {o k : Nat} {p : Moments × Option Moments} (hp : LinearShapes .R [k] [o] p) (hb : p.2.isSome = bias) {a : TorchLin (NdArray ℝ)} {t : TorchLin (List Nat → ℝ)}
    (ha : a.IsTorch bias o k t) : All3 (fun (m : Moments) p y => m.value.shape ≠ [] ∧ p.Is m.value.shape y) (paramsOf p) a.toList t.toList ∧ t.b.isSome = bias := by
  obtain ⟨w, b⟩ := p
  obtain ⟨aw, ab⟩ := a
  obtain ⟨tw, tb⟩ := t
  obtain ⟨h1, h2⟩ := hp
  obtain ⟨h3, h4, h5⟩ := ha
  dsimp only at h1 h2 h3 h4 h5 hb
  have h1' : w.value.shape = [o, k] := h1
  have hw : w.value.shape ≠ [] ∧ aw.Is w.value.shape tw := by rw [h1']; exact ⟨by simp, h3⟩
  cases h5 with
  | none =>
    cases b with
    | none => exact ⟨.cons hw .nil, h4⟩
    | some b => exact absurd (hb.trans h4.symm) (by simp)
  | some h5 =>
    cases b with
    | none => exact absurd (hb.trans h4.symm) (by simp)
    | some b =>
      refine ⟨.cons hw (.cons ?_ .nil), h4⟩
      rw [h2 b rfl]
      exact ⟨by simp, h5⟩

theorem hidden_all3 : ∀ {ps : List (Moments × Option Moments)} {k : Nat} {as : List (TorchLin (NdArray ℝ))} {ts : List (TorchLin (List Nat → ℝ))}, HiddenShapes .R width [k] ps →
    (∀ p ∈ ps, p.2.isSome = bias) → HiddenTorch bias width k as ts → ps.length = as.length →
    All3 (fun (m : Moments) p y => m.value.shape ≠ [] ∧ p.Is m.value.shape y) (ps.flatMap paramsOf) (as.flatMap TorchLin.toList) (ts.flatMap TorchLin.toList) ∧
      ps.length = ts.length ∧ ∀ t ∈ ts, t.b.isSome = bias
  | [], _, [], [], _, _, _, _ => ⟨.nil, rfl, by simp⟩
  | [], _, [], _ :: _, _, _, h, _ => h.elim
  | [], _, _ :: _, _, _, _, _, h => by simp at h
  | _ :: _, _, [], _, _, _, _, h => by simp at h
  | _ :: _, _, _ :: _, [], _, _, h, _ => h.elim
  | p :: ps, k, a :: as, t :: ts, h1, h2, h3, h4 => by
    obtain ⟨g1, g2⟩ := lin_all3 h1.1 (h2 p (by simp)) h3.1
    obtain ⟨g3, g4, g5⟩ := hidden_all3 h1.2 (fun p hp => h2 p (by simp [hp])) h3.2 (by simpa using h4)
    refine ⟨g1.append g3, by simp [g4], ?_⟩
    intro t' ht'
    rcases List.mem_cons.1 ht' with rfl | ht'
    · exact g2
    · exact g5 t' ht'

/-- Contents by layers, from those by parameters. -/
theorem values_of {env : Env} : ∀ {ps : List (Moments × Option Moments)} {ts : List (TorchLin (List Nat → ℝ))}, ps.length = ts.length → (∀ p ∈ ps, p.2.isSome = bias) →
    (∀ t ∈ ts, t.b.isSome = bias) → List.Forall₂ (fun m y => env m.value.id = y) (ps.flatMap paramsOf) (ts.flatMap TorchLin.toList) → ps.map (valuesOf env) = ts.map TorchLin.values
  | [], [], _, _, _, _ => rfl
  | [], _ :: _, h, _, _, _ => by simp at h
  | _ :: _, [], h, _, _, _ => by simp at h
  | (w, b) :: ps, ⟨tw, tb⟩ :: ts, h, hp, ht, hf => by
    have h1 := hp (w, b) (by simp)
    have h2 := ht ⟨tw, tb⟩ (by simp)
    dsimp only at h1 h2
    have hp' := fun p hm => hp p (List.mem_cons_of_mem _ hm)
    have ht' := fun t hm => ht t (List.mem_cons_of_mem _ hm)
    rw [List.flatMap_cons, List.flatMap_cons] at hf
    rw [List.map_cons, List.map_cons]
    cases b with
    | none =>
      cases tb with
      | none =>
        cases hf with
        | cons e hf => rw [values_of (by simpa using h) hp' ht' hf, valuesOf, TorchLin.values, e]; rfl
      | some c => exact absurd (h1.trans h2.symm) (by simp)
    | some b =>
      cases tb with
      | none => exact absurd (h1.trans h2.symm) (by simp)
      | some c =>
        cases hf with
        | cons e hf =>
          cases hf with
          | cons e' hf =>
            rw [values_of (by simpa using h) hp' ht' hf, valuesOf, TorchLin.values, e]
            simp only [biasValue, Option.getD_some]
            rw [e']

/-! ### What is read off the parameters -/

private theorem flat_length {bias : Bool} : ∀ {as : List (TorchLin (NdArray ℝ))}, (∀ a ∈ as, a.b.isSome = bias) → (as.flatMap TorchLin.toList).length = if bias then 2 * as.length else as.length
  | [], _ => by simp
  | ⟨w, b⟩ :: as, h => by
    have h1 := h ⟨w, b⟩ (by simp)
    have h2 := flat_length (fun a ha => h a (List.mem_cons_of_mem _ ha))
    rw [List.flatMap_cons, List.length_append, h2]
    dsimp only at h1
    subst h1
    cases b <;> simp [TorchLin.toList] <;> omega

private theorem hiddenTorch_bias : ∀ {as : List (TorchLin (NdArray ℝ))} {ts : List (TorchLin (List Nat → ℝ))} {k : Nat}, HiddenTorch bias width k as ts → ∀ a ∈ as, a.b.isSome = bias
  | [], _, _, _, _, h => by cases h
  | _ :: _, [], _, h, _, _ => h.elim
  | a :: as, t :: ts, k, h, a', h' => by
    rcases List.mem_cons.1 h' with rfl | h'
    · exact h.1.2.1
    · exact hiddenTorch_bias h.2 a' h'

theorem deepSizes_eq {a : DeepP (NdArray ℝ)} {t : DeepP (List Nat → ℝ)} (ha : a.IsTorch bias q width C t) (hl : a.hidden ≠ []) :
    deepSizes a.toList = .ok ⟨bias, a.hidden.length + 1, q, width⟩ := by
  have hlen : a.toList.length = if bias then 2 * (a.hidden.length + 1) else a.hidden.length + 1 := by
    rw [DeepP.toList, flat_length (bias := bias)]
    · simp
    · intro b hb
      rcases List.mem_append.1 hb with hb | hb
      · exact hiddenTorch_bias ha.1 b hb
      · rw [List.mem_singleton.1 hb]; exact ha.2.2.1
  obtain ⟨hid, last⟩ := a
  obtain ⟨thid, tlast⟩ := t
  obtain ⟨h1, h2⟩ := ha
  dsimp only at h1 h2 hl hlen
  cases hid with
  | nil => exact absurd rfl hl
  | cons f as =>
    cases thid with
    | nil => exact h1.elim
    | cons tf ts =>
      obtain ⟨fw, fb⟩ := f
      obtain ⟨tw, tb⟩ := tf
      obtain ⟨⟨hw, hb, hr⟩, h3⟩ := h1
      dsimp only at hw hb hr
      cases hr with
      | some hr =>
        rename_i c y
        simp only [Option.isSome_some] at hb
        subst hb
        have e : (DeepP.mk (⟨fw, some c⟩ :: as) last).toList = fw :: c :: (as ++ [last]).flatMap TorchLin.toList := rfl
        rw [e] at hlen ⊢
        rw [deepSizes]
        change (Except.ok c >>= fun p1 => deepBias _ p1 >>= fun r => Except.ok fw >>= fun p0 => _) = _
        rw [M.bind_ok, deepBias, if_neg (by rw [hr.1]; simp), if_pos (by rw [hr.1]; rfl), M.bind_ok, M.bind_ok, hw.1, pyIndex_one, M.bind_ok, pyIndex_zero, M.bind_ok, hlen]
        dsimp only
        rw [if_pos rfl, Nat.mul_div_cancel_left _ (by decide)]
      | none =>
        simp only [Option.isSome_none] at hb
        subst hb
        have hsecond : ∃ (c : NdArray ℝ) (r : List (NdArray ℝ)) (S : List Nat), (as ++ [last]).flatMap TorchLin.toList = c :: r ∧ c.shape = S ∧ S.length = 2 := by
          cases as with
          | nil =>
            refine ⟨last.w, _, _, rfl, h2.1.1, rfl⟩
          | cons g as =>
            cases ts with
            | nil => exact h3.elim
            | cons tg ts => exact ⟨g.w, _, _, rfl, h3.1.1.1, rfl⟩
        obtain ⟨c, r, S, ec, eS, eS'⟩ := hsecond
        have e : (DeepP.mk (⟨fw, none⟩ :: as) last).toList = fw :: c :: r := by
          rw [← ec]; rfl
        rw [e] at hlen ⊢
        rw [deepSizes]
        change (Except.ok c >>= fun p1 => deepBias _ p1 >>= fun r => Except.ok fw >>= fun p0 => _) = _
        rw [M.bind_ok, deepBias, if_pos (by rw [eS, eS']), M.bind_ok, M.bind_ok, hw.1, pyIndex_one, M.bind_ok, pyIndex_zero, M.bind_ok, hlen]
        rfl

/-! ### The property -/

/-- **`from_torch`, then `forward_async`.** For every PyTorch MLP with at least two linear layers whose hidden layers have the same size, all with a bias or all without, and each batch size:
`from_torch` succeeds, it makes an input tensor of shape inputs × batch and a model with one linear layer for each of those of the MLP; after it, whatever values `x` are put into the input,
`forward_async` leaves in the last activation the (transposed) output of the PyTorch MLP. -/
theorem C69_from_torch (hB : 0 < B) (hq : 0 < q) (hw : 0 < width) (hC : 0 < C) {a : DeepP (NdArray ℝ)} {t : DeepP (List Nat → ℝ)} (ha : a.IsTorch bias q width C t) (hl : a.hidden ≠ [])
    (next : Nat) (asIdx : ℝ → Int) (invalidate : Bool) :
    ∃ (g : TorchedDeep ℝ) (acts : List Moments) (layers : List (PyLayer ℝ)) (out : Moments), deepFromTorchInit a.toList B C "relu" next = .ok (some g) ∧ g.x = ⟨next, [q, B], [q, B]⟩ ∧
      g.model = BaseModel.init acts layers ∧ layers.length = 2 * a.hidden.length + 1 ∧ acts = ⟨g.x, g.x, false⟩ :: layers.map PyLayer.output ∧ acts.getLast? = some out ∧
      out.value.shape = [C, B] ∧
      (let params := layers.flatMap PyLayer.parameters
      let given : List Moments := ⟨g.x, g.x, false⟩ :: params
      let net := netOf asIdx invalidate layers
      IsNetwork asIdx invalidate given layers ∧ (∀ i ∈ netIds given net, i < g.next) ∧ (∃ s, NetReady given net s) ∧
      ∀ (tmpId : Nat) (s : Store ℝ), tmpId ∉ netIds given net → NetReady given net s → ∃ s1, deepFromTorchLoad g a.toList tmpId s = .ok s1 ∧ NetReady given net s1 ∧
        List.Forall₂ (fun m y => m.value.Holds s1 y) params t.toList ∧
        ∀ (s2 : Store ℝ) (x : List Nat → ℝ), OnlyChanged [g.x.id, tmpId] s1 s2 → g.x.Ready s2 → g.x.Holds s2 x →
          Runs (g.model.forwardAsync asIdx invalidate) s2 (fwdIds net) (fun s3 => out.value.Holds s3 (fun I => torchDeep q width t (fun b i => x [i, b]) (I.getD 1 0) (I.getD 0 0)))) := by
  have wx : newTensor next [q, B] [q, B] = .ok ⟨next, [q, B], [q, B]⟩ := newTensor_ok (by simp [Pos, *])
  set x : Tensor := ⟨next, [q, B], [q, B]⟩ with hxd
  have hu : Moments.Usable ⟨x, x, false⟩ := ⟨by simp [Tensor.WF, Pos, *], rfl, rfl⟩
  obtain ⟨acts, layers, next', e, hnet, hacts, hlen, hbel, hwf, hpl, out, ps, p, hout, hsh, hps, hpar, hb, hs1, hs2, hval⟩ :=
    C37_deep_relu (asIdx := asIdx) (invalidate := invalidate) (x := ⟨x, x, false⟩) hu (by simp [Moments.ids, Moments.gradIds]) (next := next + 1)
      (by simp [Moments.ids, Moments.gradIds, hxd]) .R (n := 1) one_pos (by simp [Tensor.ndim, hxd]) (width := width) (tile := width) (nClasses := C) (nlayers := a.hidden.length + 1)
      hw hw hC (by have := List.length_pos_of_ne_nil hl; omega) bias
  have hsh : out.value.shape = [C, B] := hsh
  have hs1 : HiddenShapes .R width [q] ps := hs1
  have hps' : ps.length = a.hidden.length := by omega
  obtain ⟨g1, g2, g3⟩ := hidden_all3 hs1 (fun p hp => hb p (by simp [hp])) ha.1 hps'
  obtain ⟨g4, g5⟩ := lin_all3 hs2 (hb p (by simp)) ha.2
  have hall : All3 (fun (m : Moments) p y => m.value.shape ≠ [] ∧ p.Is m.value.shape y) (layers.flatMap PyLayer.parameters) a.toList t.toList := by
    rw [hpar, DeepP.toList, DeepP.toList, List.flatMap_append, List.flatMap_append, List.flatMap_append]
    refine g1.append ?_
    simpa using g4
  have htb : ∀ u ∈ t.hidden ++ [t.last], u.b.isSome = bias := by
    intro u hu'
    rcases List.mem_append.1 hu' with hu' | hu'
    · exact g3 u hu'
    · rw [List.mem_singleton.1 hu']; exact g5
  refine ⟨⟨x, BaseModel.init acts layers, next'⟩, acts, layers, out, ?_, rfl, rfl, by rw [hlen]; omega, hacts, hout, hsh, ?_⟩
  · rw [deepFromTorchInit, deepSizes_eq ha hl, M.bind_ok]
    dsimp only
    rw [wx, M.bind_ok, if_pos rfl]
    refine (congrArg (· >>= _) e).trans ?_
    rw [M.bind_ok]
  intro params given net
  have pmem : ∀ m ∈ params, m ∈ given := fun m hm => List.mem_cons_of_mem _ hm
  have xmem : (⟨x, x, false⟩ : Moments) ∈ given := List.mem_cons_self ..
  have hids := ids_nodup hnet.ids
  rw [List.map_cons, List.nodup_cons] at hids
  have hxne : ∀ m ∈ params, x.id ≠ m.value.id := fun m hm h => hids.1 (h ▸ List.mem_map_of_mem hm)
  refine ⟨hnet, hbel, ?_, ?_⟩
  · obtain ⟨s, hs, -⟩ := C37_registered hnet (by
      intro m hm
      rcases List.mem_append.1 hm with hm | hm
      · rcases List.mem_cons.1 hm with rfl | hm
        · exact hu
        · exact (hwf m (List.mem_append_left _ hm)).1
      · exact (hwf m (List.mem_append_right _ hm)).1) (by
      intro l hl T hT
      obtain ⟨l0, hl0, rfl⟩ := List.mem_map.1 hl
      rw [(hpl l0 hl0 _ _).1] at hT
      cases hT) (fun _ _ => 0) (fun _ _ => 0)
    exact ⟨s, hs⟩
  intro tmpId s htmp hr
  have ht : ∀ m ∈ given, tmpId ≠ m.value.id := fun m hm h => htmp (h ▸ mem_netIds hm)
  obtain ⟨s1, e1, v1, r1, o1⟩ := deepLoads_spec (tmpId := tmpId) hall hids.2 (fun m hm => ht m (pmem m hm)) (s := s) (fun m hm => (hr.1 m (List.mem_append_left _ (pmem m hm))).1)
  have hr1 : NetReady given net s1 := hr.keep hnet.ids o1 (by
    intro i hi
    rcases List.mem_cons.1 hi with rfl | hi
    · exact .inl htmp
    · obtain ⟨m, hm, rfl⟩ := List.mem_map.1 hi
      exact .inr ⟨m, pmem m hm, rfl, r1 m hm⟩)
  refine ⟨s1, ?_, hr1, v1, ?_⟩
  · rw [deepFromTorchLoad, ← e1]
    congr 1
    simp only [BaseModel.init, List.map_flatMap]
  intro s2 v o2 r2 v2
  have hr2 : NetReady given net s2 := hr1.keep hnet.ids o2 (by
    intro i hi
    simp only [List.mem_cons, List.not_mem_nil, or_false] at hi
    rcases hi with rfl | rfl
    · exact .inr ⟨_, xmem, rfl, r2⟩
    · exact .inl htmp)
  have hv2 : List.Forall₂ (fun m y => m.value.Holds s2 y) params t.toList := by
    have key : ∀ {ms : List Moments} {ys : List (List Nat → ℝ)}, List.Forall₂ (fun m y => m.value.Holds s1 y) ms ys → (∀ m ∈ ms, m ∈ params) →
        List.Forall₂ (fun m y => m.value.Holds s2 y) ms ys := by
      intro ms ys h hm
      induction h with
      | nil => exact .nil
      | cons h _ ih =>
        refine .cons (o2.holds h ?_) (ih fun m' hm' => hm m' (List.mem_cons_of_mem _ hm'))
        have h1 := hm _ (List.mem_cons_self ..)
        simp only [List.mem_cons, List.not_mem_nil, or_false, not_or]
        exact ⟨Ne.symm (hxne _ h1), Ne.symm (ht _ (pmem _ h1))⟩
    exact key v1 fun _ h => h
  obtain ⟨env, en1, en2, hrun⟩ := plain_forward (acts := acts) hnet hpl hr2 v2 hv2
  have hmem : ∃ l ∈ layers, l.output = out := by
    rw [hacts] at hout
    have hne : layers.map PyLayer.output ≠ [] := by
      intro h
      have := congrArg List.length h
      rw [List.length_map, hlen] at this
      simp at this
      omega
    obtain ⟨y, ys, ey⟩ := List.exists_cons_of_ne_nil hne
    rw [ey, List.getLast?_cons_cons] at hout
    have := List.mem_of_getLast? hout
    rw [← ey] at this
    obtain ⟨l, hl', e'⟩ := List.mem_map.1 this
    exact ⟨l, hl', e'⟩
  obtain ⟨l, hl', rfl⟩ := hmem
  refine hrun.imp (fun _ h => h) fun s3 _ h => ?_
  refine holds_congr (h l hl') fun I hI => ?_
  rw [hsh] at hI
  obtain ⟨c, b, rfl⟩ := List.length_eq_two.1 hI.length
  rw [hval env, en1]
  rw [hpar, DeepP.toList] at en2
  have hvals := values_of (bias := bias) (by simp [g2]) hb htb en2
  rw [List.map_append, List.map_append] at hvals
  obtain ⟨hv1, hv2'⟩ := List.append_inj hvals (by simp [g2])
  simp only [List.map_cons, List.map_nil, List.cons.injEq, and_true] at hv2'
  rw [hv1, hv2']
  exact deep_same q width t v c b

/-! ### What is rejected, what is not supported -/

private theorem linShapes_eq {o k : Nat} {p : Moments × Option Moments} (hp : LinearShapes .R [k] [o] p) (hb : p.2.isSome = bias) :
    (paramsOf p).map (fun m => m.value.shape) = linShapes bias o k := by
  obtain ⟨w, b⟩ := p
  obtain ⟨h1, h2⟩ := hp
  have h1' : w.value.shape = [o, k] := h1
  dsimp only at hb
  subst hb
  cases b with
  | none => simp [paramsOf, linShapes, h1']
  | some b => simp [paramsOf, linShapes, h1', h2 b rfl]

private theorem hiddenShapes_eq : ∀ {ps : List (Moments × Option Moments)} {k : Nat}, HiddenShapes .R width [k] ps → (∀ p ∈ ps, p.2.isSome = bias) →
    (ps.flatMap paramsOf).map (fun m => m.value.shape) = hiddenShapes bias width k ps.length
  | [], _, _, _ => rfl
  | p :: ps, k, h, hb => by
    rw [List.flatMap_cons, List.map_append, linShapes_eq h.1 (hb p (by simp)), hiddenShapes_eq h.2 fun q hq => hb q (by simp [hq])]
    rfl

/-- **Other shapes.** Whatever parameters are given from which `from_torch` reads off the sizes `q`, `width` and the number of layers: the tensors are made for these sizes, and if the shape of some
parameter is another than that of the corresponding parameter of an MLP with these sizes and `C` classes, then `from_torch` raises an exception. So hidden layers of different sizes and another number of
classes than that of the PyTorch MLP are noticed. -/
theorem C69_rejects (hB : 0 < B) (hq : 0 < q) (hw : 0 < width) (hC : 0 < C) {n : Nat} {a : List (NdArray ℝ)} (hz : deepSizes a = .ok ⟨bias, n + 1, q, width⟩) (hn : 0 < n)
    (hdef : ∀ p ∈ a, ∃ y, p.Is p.shape y) (hbad : ∃ (i : Nat) (p : NdArray ℝ) (S : List Nat), a[i]? = some p ∧ (deepShapes bias q width C n)[i]? = some S ∧ p.shape ≠ S)
    (next : Nat) (asIdx : ℝ → Int) (invalidate : Bool) :
    ∃ (g : TorchedDeep ℝ) (acts : List Moments) (layers : List (PyLayer ℝ)), deepFromTorchInit a B C "relu" next = .ok (some g) ∧ g.model = BaseModel.init acts layers ∧
      (let params := layers.flatMap PyLayer.parameters
      let given : List Moments := ⟨g.x, g.x, false⟩ :: params
      let net := netOf asIdx invalidate layers
      params.map (fun m => m.value.shape) = deepShapes bias q width C n ∧
      ∀ (tmpId : Nat) (s : Store ℝ), tmpId ∉ netIds given net → NetReady given net s → Throws (deepFromTorchLoad g a tmpId s)) := by
  have wx : newTensor next [q, B] [q, B] = .ok ⟨next, [q, B], [q, B]⟩ := newTensor_ok (by simp [Pos, *])
  set x : Tensor := ⟨next, [q, B], [q, B]⟩ with hxd
  have hu : Moments.Usable ⟨x, x, false⟩ := ⟨by simp [Tensor.WF, Pos, *], rfl, rfl⟩
  obtain ⟨acts, layers, next', e, hnet, hacts, hlen, hbel, hwf, hpl, out, ps, p, hout, hsh, hps, hpar, hb, hs1, hs2, hval⟩ :=
    C37_deep_relu (asIdx := asIdx) (invalidate := invalidate) (x := ⟨x, x, false⟩) hu (by simp [Moments.ids, Moments.gradIds]) (next := next + 1)
      (by simp [Moments.ids, Moments.gradIds, hxd]) .R (n := 1) one_pos (by simp [Tensor.ndim, hxd]) (width := width) (tile := width) (nClasses := C) (nlayers := n + 1)
      hw hw hC (by omega) bias
  have hs1 : HiddenShapes .R width [q] ps := hs1
  have hshapes : (layers.flatMap PyLayer.parameters).map (fun m => m.value.shape) = deepShapes bias q width C n := by
    rw [hpar, List.flatMap_append, List.map_append, hiddenShapes_eq hs1 fun p hp => hb p (by simp [hp]), hps, deepShapes]
    congr 1
    rw [List.flatMap_singleton]
    exact linShapes_eq hs2 (hb p (by simp))
  refine ⟨⟨x, BaseModel.init acts layers, next'⟩, acts, layers, ?_, rfl, hshapes, ?_⟩
  · rw [deepFromTorchInit, hz, M.bind_ok]
    dsimp only
    rw [wx, M.bind_ok, if_pos rfl]
    refine (congrArg (· >>= _) e).trans ?_
    rw [M.bind_ok]
  intro tmpId s htmp hr
  have hids := ids_nodup hnet.ids
  rw [List.map_cons, List.nodup_cons] at hids
  have key := deepLoads_rejects (tmpId := tmpId) (ps := a) hids.2 (fun m hm h => htmp (h ▸ mem_netIds (List.mem_cons_of_mem _ hm))) (s := s)
    (fun m hm => ⟨(hr.1 m (List.mem_append_left _ (List.mem_cons_of_mem _ hm))).1, ?_⟩) hdef ?_
  · rw [deepFromTorchLoad]
    dsimp only
    rw [BaseModel.init, ← List.map_flatMap]
    exact key
  · have hm' : m.value.shape ∈ deepShapes bias q width C n := by
      rw [← hshapes]
      exact List.mem_map_of_mem hm
    have lin : ∀ {o k : Nat} {S : List Nat}, S ∈ linShapes bias o k → S ≠ [] := by
      intro o k S hS
      unfold linShapes at hS
      rcases List.mem_cons.1 hS with rfl | hS
      · simp
      · cases bias
        · simp at hS
        · simp at hS
          simp [hS]
    have hid : ∀ {n k : Nat} {S : List Nat}, S ∈ hiddenShapes bias width k n → S ≠ [] := by
      intro n
      induction n with
      | zero => intro k S hS; simp [hiddenShapes] at hS
      | succ n ih =>
        intro k S hS
        rw [hiddenShapes] at hS
        rcases List.mem_append.1 hS with hS | hS
        · exact lin hS
        · exact ih hS
    rw [deepShapes] at hm'
    rcases List.mem_append.1 hm' with hm' | hm'
    · exact hid hm'
    · exact lin hm'
  · obtain ⟨i, p', S, b1, b2, b3⟩ := hbad
    rw [← hshapes, List.getElem?_map] at b2
    obtain ⟨m, c1, c2⟩ := Option.map_eq_some_iff.1 b2
    exact ⟨i, m, p', c1, b1, by rw [c2]; exact b3⟩

/-- One parameter only, or a single layer with bias: an exception. -/
theorem C69_one_layer {w c : NdArray ℝ} (hc : c.shape.length = 1) (hw : w.shape.length = 2) : Throws (deepFromTorchInit [w] B C "relu" next) ∧ Throws (deepFromTorchInit [w, c] B C "relu" next) := by
  constructor
  · refine Throws.bind (Throws.bind ?_)
    exact ⟨_, rfl⟩
  · obtain ⟨o, k, ew⟩ := List.length_eq_two.1 hw
    have e : deepSizes [w, c] = .ok ⟨true, 1, k, o⟩ := by
      rw [deepSizes]
      change (Except.ok c >>= fun p1 => deepBias _ p1 >>= fun r => Except.ok w >>= fun p0 => _) = _
      rw [M.bind_ok, deepBias, if_neg (by omega), if_pos hc, M.bind_ok, M.bind_ok, ew, pyIndex_one, M.bind_ok, pyIndex_zero, M.bind_ok]
      simp
    rw [deepFromTorchInit, e, M.bind_ok]
    dsimp only
    by_cases hp : 0 < k ∧ 0 < B
    · rw [newTensor_ok (by simp [Pos, hp.1, hp.2]), M.bind_ok, if_pos rfl]
      refine Throws.bind ?_
      unfold deepRelu
      exact throws_pos (by simp)
    · refine Throws.bind ?_
      unfold newTensor
      refine throws_pos ?_
      simp only [Tensor.WF, Pos, List.forall_mem_cons, List.not_mem_nil, IsEmpty.forall_iff, implies_true, and_true]
      exact fun h => hp h.1

/-- For another nonlinearity `from_torch` returns nothing (`None`), and no exception. -/
theorem C69_other (hB : 0 < B) (hq : 0 < q) {a : DeepP (NdArray ℝ)} {t : DeepP (List Nat → ℝ)} (ha : a.IsTorch bias q width C t) (hl : a.hidden ≠ []) {name : String} (hname : name ≠ "relu") :
    deepFromTorchInit a.toList B C name next = .ok none := by
  rw [deepFromTorchInit, deepSizes_eq ha hl, M.bind_ok]
  dsimp only
  rw [newTensor_ok (by simp [Pos, *]), M.bind_ok, if_neg hname]

/-! ### The hypotheses can be met -/

/-- Every PyTorch MLP with layers 5 → 4 → 4 → 2 and biases is loaded, for batches of 6 vectors, and the model computes its output. -/
example (t1 t2 t3 : TorchLin (List Nat → ℝ)) (h1 : t1.b.isSome) (h2 : t2.b.isSome) (h3 : t3.b.isSome) (v : List Nat → ℝ) :
    ∃ (a : DeepP (NdArray ℝ)) (g : TorchedDeep ℝ) (s s1 s2 : Store ℝ) (ids : List Nat) (out : Moments), a.IsTorch true 5 4 2 ⟨[t1, t2], t3⟩ ∧ a.toList.length = 6 ∧
      deepFromTorchInit a.toList 6 2 "relu" 0 = .ok (some g) ∧ deepFromTorchLoad g a.toList g.next s = .ok s1 ∧ fromArray g.x g.next (ndOf [5, 6] v).toF s1 = .ok s2 ∧
      Runs (g.model.forwardAsync (fun _ => 0) true) s2 ids (fun s3 => out.value.Holds s3 fun I => torchDeep 5 4 ⟨[t1, t2], t3⟩ (fun b i => v [i, b]) (I.getD 1 0) (I.getD 0 0)) := by
  obtain ⟨w1, b1⟩ := t1
  obtain ⟨w2, b2⟩ := t2
  obtain ⟨w3, b3⟩ := t3
  obtain ⟨b1, rfl⟩ := Option.isSome_iff_exists.1 h1
  obtain ⟨b2, rfl⟩ := Option.isSome_iff_exists.1 h2
  obtain ⟨b3, rfl⟩ := Option.isSome_iff_exists.1 h3
  have ha : (⟨[⟨ndOf [4, 5] w1, some (ndOf [4] b1)⟩, ⟨ndOf [4, 4] w2, some (ndOf [4] b2)⟩], ⟨ndOf [2, 4] w3, some (ndOf [2] b3)⟩⟩ : DeepP (NdArray ℝ)).IsTorch true 5 4 2
      ⟨[⟨w1, some b1⟩, ⟨w2, some b2⟩], ⟨w3, some b3⟩⟩ :=
    ⟨⟨⟨ndOf_is _ _, rfl, .some (ndOf_is _ _)⟩, ⟨ndOf_is _ _, rfl, .some (ndOf_is _ _)⟩, trivial⟩, ⟨ndOf_is _ _, rfl, .some (ndOf_is _ _)⟩⟩
  obtain ⟨g, acts, layers, out, e, hx, -, -, -, -, -, hnet, hlt, ⟨s, hr⟩, hload⟩ := C69_from_torch (B := 6) (by decide) (by decide) (by decide) (by decide) ha (by simp) 0 (fun _ => 0) true
  obtain ⟨s1, e1, r1, -, hf⟩ := hload g.next s (fun h => Nat.lt_irrefl _ (hlt _ h)) hr
  have hne : g.next ≠ g.x.id := fun h => Nat.lt_irrefl _ (h ▸ hlt _ (mem_netIds (m := ⟨g.x, g.x, false⟩) (List.mem_cons_self ..)))
  obtain ⟨s2, e2, v2, r2, o2⟩ := fromArray_is (y := v) (r1.1 ⟨g.x, g.x, false⟩ (by simp)).1 hne (by rw [hx]; simp) (by rw [hx]; exact ndOf_is _ _)
  exact ⟨_, g, s, s1, s2, _, out, ha, rfl, e, e1, e2, hf s2 v o2 r2 v2⟩

/-- Layers 5 → 4 → 3 → 2 are rejected. -/
example (w1 w2 w3 : List Nat → ℝ) : ∃ g : TorchedDeep ℝ, deepFromTorchInit [ndOf [4, 5] w1, ndOf [3, 4] w2, ndOf [2, 3] w3] 6 2 "relu" 0 = .ok (some g) ∧
    ∃ s : Store ℝ, Throws (deepFromTorchLoad g [ndOf [4, 5] w1, ndOf [3, 4] w2, ndOf [2, 3] w3] g.next s) := by
  have hd : ∀ p ∈ [ndOf [4, 5] w1, ndOf [3, 4] w2, ndOf [2, 3] w3], ∃ y, p.Is p.shape y := by
    intro p hp
    simp only [List.mem_cons, List.not_mem_nil, or_false] at hp
    rcases hp with rfl | rfl | rfl
    · exact ⟨w1, ndOf_is _ _⟩
    · exact ⟨w2, ndOf_is _ _⟩
    · exact ⟨w3, ndOf_is _ _⟩
  have hx : Moments.Usable ⟨⟨0, [5, 6], [5, 6]⟩, ⟨0, [5, 6], [5, 6]⟩, false⟩ := ⟨by simp [Tensor.WF, Pos], rfl, rfl⟩
  obtain ⟨acts, layers, next', e, hnet, -, -, hbel, hwf, hpl, -⟩ := C37_deep_relu (asIdx := fun _ => 0) (invalidate := true) hx (by simp [Moments.ids, Moments.gradIds]) (next := 1)
    (by simp [Moments.ids, Moments.gradIds]) .R (n := 1) one_pos (by simp [Tensor.ndim]) (width := 4) (tile := 4) (nClasses := 2) (nlayers := 3) (by decide) (by decide) (by decide) (by decide) false
  obtain ⟨g, acts', layers', e', hm, -, hbad⟩ := C69_rejects (bias := false) (q := 5) (width := 4) (B := 6) (C := 2) (n := 2) (by decide) (by decide) (by decide) (by decide)
    (a := [ndOf [4, 5] w1, ndOf [3, 4] w2, ndOf [2, 3] w3]) rfl (by decide) hd ⟨1, ndOf [3, 4] w2, [4, 4], rfl, rfl, by simp [ndOf]⟩ 0 (fun _ => 0) true
  have eg : g = ⟨⟨0, [5, 6], [5, 6]⟩, BaseModel.init acts layers, next'⟩ := by
    have h2 : deepFromTorchInit [ndOf [4, 5] w1, ndOf [3, 4] w2, ndOf [2, 3] w3] 6 2 "relu" 0 = .ok (some ⟨⟨0, [5, 6], [5, 6]⟩, BaseModel.init acts layers, next'⟩) := by
      rw [deepFromTorchInit, show deepSizes [ndOf [4, 5] w1, ndOf [3, 4] w2, ndOf [2, 3] w3] = .ok ⟨false, 3, 5, 4⟩ from rfl, M.bind_ok]
      dsimp only
      rw [newTensor_ok (by simp [Pos]), M.bind_ok, if_pos rfl]
      refine (congrArg (· >>= _) e).trans ?_
      rw [M.bind_ok]
    rw [e'] at h2
    exact Option.some.inj (Except.ok.inj h2)
  subst eg
  have el : layers' = layers := by
    have := congrArg BaseModel.layers hm
    exact this.symm
  subst el
  obtain ⟨s, hs, -⟩ := C37_registered hnet (by
      intro m hm
      rcases List.mem_append.1 hm with hm | hm
      · rcases List.mem_cons.1 hm with rfl | hm
        · exact hx
        · exact (hwf m (List.mem_append_left _ hm)).1
      · exact (hwf m (List.mem_append_right _ hm)).1) (by
      intro l hl T hT
      obtain ⟨l0, hl0, rfl⟩ := List.mem_map.1 hl
      rw [(hpl l0 hl0 _ _).1] at hT
      cases hT) (fun _ _ => 0) (fun _ _ => 0)
  exact ⟨_, e', s, hbad next' s (fun h => Nat.lt_irrefl _ (hbel _ h)) hs⟩

/-- **Not an MLP.** Fewer than two parameters, a second parameter which is neither a matrix nor a vector, or a first parameter which is not at least a matrix: `from_torch` raises an exception before
any tensor is made. -/
theorem C69_no_mlp {α : Type} {a : List (NdArray α)} (h : a.length < 2 ∨ (∃ p, a[1]? = some p ∧ p.shape.length ≠ 1 ∧ p.shape.length ≠ 2) ∨ ∃ p, a[0]? = some p ∧ p.shape.length < 2)
    (batch nClasses next : Nat) (nonlinearity : String) : Throws (deepFromTorchInit a batch nClasses nonlinearity next) := by
  have key : Throws (deepSizes a) := by
    rw [deepSizes]
    cases h1 : a[1]? with
    | none => exact ⟨_, rfl⟩
    | some p1 =>
      have hlen : 2 ≤ a.length := by
        have := List.getElem?_eq_some_iff.1 h1
        obtain ⟨h, -⟩ := this
        omega
      change Throws (deepBias a.length p1 >>= _)
      by_cases h2 : p1.shape.length = 2 ∨ p1.shape.length = 1
      · have hok : ∃ r, deepBias a.length p1 = .ok r := by
          rw [deepBias]
          rcases h2 with h2 | h2
          · rw [if_pos h2]; exact ⟨_, rfl⟩
          · rw [if_neg (by omega), if_pos h2]; exact ⟨_, rfl⟩
        obtain ⟨r, hr⟩ := hok
        rw [hr, M.bind_ok]
        have h0 : ∃ p0, a[0]? = some p0 := ⟨a[0], by simp⟩
        obtain ⟨p0, h0⟩ := h0
        rw [h0]
        have hsh : p0.shape.length < 2 := by
          rcases h with h | ⟨p, e, hp1, hp2⟩ | ⟨p, e, hp⟩
          · omega
          · rw [h1] at e; obtain rfl := Option.some.inj e; omega
          · rw [h0] at e; obtain rfl := Option.some.inj e; exact hp
        change Throws (pyIndex p0.shape 1 >>= _)
        have : Throws (pyIndex p0.shape 1) := by
          rw [pyIndex]
          exact throws_pos (.inr (by rw [if_neg (by decide)]; omega))
        obtain ⟨m, hm⟩ := this
        exact ⟨m, by rw [hm]; rfl⟩
      · have : Throws (deepBias a.length p1) := by
          rw [deepBias, if_neg (by omega), if_neg (by omega)]
          exact ⟨_, rfl⟩
        obtain ⟨m, hm⟩ := this
        exact ⟨m, by rw [hm]; rfl⟩
  obtain ⟨m, hm⟩ := key
  exact ⟨m, by rw [deepFromTorchInit, hm]; rfl⟩

/-- The second parameter is that of a convolution. -/
example (next : Nat) : Throws (deepFromTorchInit [(⟨[4, 3], fun _ => some (0 : ℝ)⟩ : NdArray ℝ), ⟨[4, 3, 2, 2], fun _ => some 0⟩] 5 3 "relu" next) :=
  C69_no_mlp (.inr (.inl ⟨_, rfl, by decide, by decide⟩)) 5 3 next "relu"

end NNTile
