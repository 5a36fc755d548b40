import Verif.Props.C60
import Verif.Props.C48
import Verif.Lib.TorchMath
/-!
# C61: GPT2 from PyTorch computes what the PyTorch model computes

`torchGpt` (in the specification) is the function of the Hugging Face model `GPT2LMHeadModel` in the terms of its own parameters. The model made by `GPT2Model.from_torch` computes it, and a PyTorch
model with the parameters exported by `to_torch` computes the same as the NNTile model.
-/
namespace NNTile
open Finset
variable {asIdx : ℝ → Int} {invalidate : Bool}

/-- **The same function.** The transformer of NNTile with the parameters `toNNTile` is the PyTorch model: with all scores of later positions replaced by `val` before the softmax, or with the
softmax over the earlier positions only. -/
theorem C61_function {z : GptDims} (hE : z.E = z.D * z.H) (t : TorchGpt (List Nat → ℝ)) (tok : List Nat → Nat) {pos : List Nat → Nat} (hpos : ∀ s, pos [s] = s) (val : ℝ) (v s n : Nat) :
    gptOut z (softAll z.S (fun I => decide (I.getD 0 0 ≤ I.getD 1 0)) val) (t.toNNTile z.E z.D) tok pos [v, s, n] = torchGpt z (maskedSoftmax z.S val) t (fun n s => tok [s, n]) n s v ∧
    gptOut z softCausal (t.toNNTile z.E z.D) tok pos [v, s, n] = torchGpt z causalSoftmax t (fun n s => tok [s, n]) n s v :=
  ⟨gpt_same hE (softAll_weight z.S val) t tok hpos v s n, gpt_same hE softCausal_weight t tok hpos v s n⟩

/-- **The limit.** When the number in place of the scores of later positions tends to minus infinity (the NNTile code uses minus infinity), the logits tend to those of causal attention. -/
theorem C61_limit {z : GptDims} (hE : z.E = z.D * z.H) (he : 0 < z.eps) {k : ActKind} (hk : z.phi = k.spec) (t : TorchGpt (List Nat → ℝ)) (tok : Nat → Nat → Nat) {s : Nat} (hs : s < z.S)
    (v n : Nat) : Filter.Tendsto (fun val => torchGpt z (maskedSoftmax z.S val) t tok n s v) Filter.atBot (nhds (torchGpt z causalSoftmax t tok n s v)) := by
  have h := C48_limit z he hk (t.toNNTile z.E z.D) (fun I => tok (I.getD 1 0) (I.getD 0 0)) (fun I => I.getD 0 0) hs v n
  simp only [(C61_function hE t (fun I => tok (I.getD 1 0) (I.getD 0 0)) (pos := fun I => I.getD 0 0) (fun _ => rfl) _ v s n).1,
    (C61_function hE t (fun I => tok (I.getD 1 0) (I.getD 0 0)) (pos := fun I => I.getD 0 0) (fun _ => rfl) 0 v s n).2] at h
  exact h

/-- Contents for given tensors. -/
theorem exists_env : ∀ {L : List (Nat × (List Nat → ℝ))}, (L.map Prod.fst).Nodup → ∃ env : Env, ∀ q ∈ L, env q.1 = q.2
  | [], _ => ⟨fun _ _ => 0, by simp⟩
  | q :: L, h => by
    rw [List.map_cons, List.nodup_cons] at h
    obtain ⟨env, he⟩ := exists_env h.2
    refine ⟨Function.update env q.1 q.2, fun q' hq' => ?_⟩
    rcases List.mem_cons.1 hq' with rfl | hq'
    · rw [Function.update_self]
    · rw [Function.update_of_ne (fun e : q'.1 = q.1 => h.1 (e ▸ List.mem_map_of_mem hq')), he q' hq']

theorem ids_nodup {given : List Moments} {net : List NetLayer} (h : (netIds given net).Nodup) : (given.map fun m => m.value.id).Nodup := by
  rw [netIds, List.nodup_append] at h
  have h' := h.1
  clear h
  induction given with
  | nil => simp
  | cons m ms ih =>
    rw [List.flatMap_cons, List.nodup_append] at h'
    rw [List.map_cons, List.nodup_cons]
    refine ⟨fun hm => ?_, ih h'.2.1⟩
    obtain ⟨m', hm', e⟩ := List.mem_map.1 hm
    exact h'.2.2 m.value.id (by simp [Moments.ids]) m.value.id (List.mem_flatMap.2 ⟨m', hm', by simp [Moments.ids, e]⟩) rfl

theorem mem_netIds {given : List Moments} {net : List NetLayer} {m : Moments} (h : m ∈ given) : m.value.id ∈ netIds given net :=
  List.mem_append_left _ (List.mem_flatMap.2 ⟨m, h, by simp [Moments.ids]⟩)

/-! ### Tensors of a network -/

/-- Values, gradients and temporary tensors. -/
def netTensors (given : List Moments) (net : List NetLayer) : List Tensor :=
  given.flatMap (fun m => m.value :: if m.gradRequired then [m.grad] else []) ++
    net.flatMap fun l => (l.out.value :: if l.out.gradRequired then [l.out.grad] else []) ++ l.temps

theorem netTensors_ids (given : List Moments) (net : List NetLayer) : (netTensors given net).map Tensor.id = netIds given net := by
  have h : ∀ m : Moments, (m.value :: if m.gradRequired then [m.grad] else []).map Tensor.id = m.ids := by
    intro m
    simp only [Moments.ids, Moments.gradIds, List.map_cons]
    cases m.gradRequired <;> rfl
  simp only [netTensors, netIds, List.map_append, List.map_flatMap, h]

theorem netReady_iff {given : List Moments} {net : List NetLayer} {s : Store ℝ} : NetReady given net s ↔ ∀ T ∈ netTensors given net, T.Ready s := by
  constructor
  · rintro ⟨h1, h2⟩ T hT
    rcases List.mem_append.1 hT with hT | hT
    · obtain ⟨m, hm, hT⟩ := List.mem_flatMap.1 hT
      rcases List.mem_cons.1 hT with rfl | hT
      · exact (h1 m (List.mem_append_left _ hm)).1
      · by_cases hg : m.gradRequired = true
        · rw [if_pos hg, List.mem_singleton] at hT
          subst hT
          exact (h1 m (List.mem_append_left _ hm)).2 hg
        · rw [if_neg hg] at hT
          cases hT
    · obtain ⟨l, hl, hT⟩ := List.mem_flatMap.1 hT
      rcases List.mem_append.1 hT with hT | hT
      · rcases List.mem_cons.1 hT with rfl | hT
        · exact (h1 l.out (List.mem_append_right _ (List.mem_map_of_mem hl))).1
        · by_cases hg : l.out.gradRequired = true
          · rw [if_pos hg, List.mem_singleton] at hT
            subst hT
            exact (h1 l.out (List.mem_append_right _ (List.mem_map_of_mem hl))).2 hg
          · rw [if_neg hg] at hT
            cases hT
      · exact h2 l hl T hT
  · intro h
    refine ⟨fun m hm => ?_, fun l hl T hT => h T (List.mem_append_right _ (List.mem_flatMap.2 ⟨l, hl, List.mem_append_right _ hT⟩))⟩
    rcases List.mem_append.1 hm with hm | hm
    · exact ⟨h _ (List.mem_append_left _ (List.mem_flatMap.2 ⟨m, hm, List.mem_cons_self ..⟩)), fun hg => h _ (List.mem_append_left _ (List.mem_flatMap.2 ⟨m, hm, by simp [hg]⟩))⟩
    · obtain ⟨l, hl, rfl⟩ := List.mem_map.1 hm
      exact ⟨h _ (List.mem_append_right _ (List.mem_flatMap.2 ⟨l, hl, by simp⟩)), fun hg => h _ (List.mem_append_right _ (List.mem_flatMap.2 ⟨l, hl, by simp [hg]⟩))⟩

/-- The network remains registered if the changed tensors do. -/
theorem NetReady.keep {given : List Moments} {net : List NetLayer} {s s' : Store ℝ} (hn : (netIds given net).Nodup) (h : NetReady given net s) {ids : List Nat} (o : OnlyChanged ids s s')
    (hi : ∀ i ∈ ids, i ∉ netIds given net ∨ ∃ m ∈ given, m.value.id = i ∧ m.value.Ready s') : NetReady given net s' := by
  rw [netReady_iff] at h ⊢
  intro T hT
  by_cases hid : T.id ∈ ids
  · rcases hi _ hid with h1 | ⟨m, hm, e, hr⟩
    · exact absurd (by rw [← netTensors_ids]; exact List.mem_map_of_mem hT) h1
    · have hm' : m.value ∈ netTensors given net := List.mem_append_left _ (List.mem_flatMap.2 ⟨m, hm, List.mem_cons_self ..⟩)
      rw [← netTensors_ids] at hn
      rw [← List.inj_on_of_nodup_map hn hm' hT e]
      exact hr
  · exact o.ready (h T hT) hid

/-! ### The model -/

/-- With the parameters of a PyTorch model, the mask and the positions in place, `forward_async` computes the PyTorch model. -/
theorem torch_forward {next : Nat} {c : Gpt2Config ℝ} {S B tS tB D : Nat} {k : ActKind} (hf : c.Fits ⟨next + 1, [S, B], [tS, tB]⟩ ⟨next, [S], [tS]⟩ S B tS tB D k) (hS : S ≤ c.maxPos)
    {ofIdx : Nat → ℝ} (ho : ∀ n : Nat, asIdx (ofIdx n) = n) (h1 : asIdx 1 ≠ 0) (h0 : asIdx 0 = 0) (val : ℝ) :
    let ids : Tensor := ⟨next + 1, [S, B], [tS, tB]⟩
    let pos : Tensor := ⟨next, [S], [tS]⟩
    ∃ (g : Gpt2Model ℝ) (layers : List (PyLayer ℝ)) (p : GptP Moments) (out : Moments),
      gpt2 ⟨ids, ids, false⟩ ⟨pos, pos, false⟩ c val (next + 2) = .ok g ∧ g.model.activations.getLast? = some (.moments out) ∧ g.model.parameters = p.toList.map .moments ∧
      out.value.shape = [c.vocabSize, S, B] ∧ p.blocks.length = c.nLayers ∧ g.mask = ⟨next + 2, [S, S], [tS, tS]⟩ ∧
      p.Shapes c.vocabSize c.maxPos c.embedDim c.nHead D c.innerDim ∧ LnInit g.tasks p.norms ∧ g.model.layers = layers ∧
      IsNetwork asIdx invalidate ([⟨ids, ids, false⟩, ⟨pos, pos, false⟩, maskMoments g.mask] ++ p.toList) layers ∧
      (∀ m ∈ p.toList ++ layers.map PyLayer.output, m.Usable ∧ m.gradRequired = true) ∧ (∀ l ∈ netOf asIdx invalidate layers, ∀ T ∈ l.temps, T.WF) ∧
      (let given : List Moments := [⟨ids, ids, false⟩, ⟨pos, pos, false⟩, maskMoments g.mask] ++ p.toList
      let net := netOf asIdx invalidate layers
      ∀ (s : Store ℝ) (t : TorchGpt (List Nat → ℝ)) (x : List Nat → ℝ), NetReady given net s → p.Hold s (t.toNNTile c.embedDim D) → g.mask.Holds s triuVal →
        pos.Holds s (fun J => ofIdx (J.getD 0 0)) → ids.Holds s x → (∀ J, InBox ids.shape J → 0 ≤ asIdx (x J) ∧ asIdx (x J) < c.vocabSize) →
        Runs (g.model.forwardAsync asIdx invalidate) s (fwdIds net) (fun s' => out.value.Holds s' (fun I =>
          torchGpt ⟨c.embedDim, S, c.nHead, D, c.innerDim, c.eps, k.spec⟩ (maskedSoftmax S val) t (fun n s => (asIdx (x [s, n])).toNat) (I.getD 2 0) (I.getD 1 0) (I.getD 0 0)))) := by
  intro ids pos
  obtain ⟨g, layers, p, out, e, hlast, hpar, hout, hlen, hlay, hmask, hsh, hln, hnet, hus, htm, hfw⟩ :=
    C48_propagation (asIdx := asIdx) (invalidate := invalidate) hf (by simp) (next := next + 2) (by simp) val h1 h0
  refine ⟨g, layers, p, out, e, hlast, hpar, hout, hlen, hmask, hsh, hln, hlay, hnet, hus, htm, ?_⟩
  intro given net s t x hr hP hM hpos hids hx
  have hnd := ids_nodup hnet.ids
  have hlx : (t.toNNTile c.embedDim D).toList.length = p.toList.length := hP.length_eq.symm
  obtain ⟨env, henv⟩ := exists_env (L := (ids.id, x) :: (pos.id, fun J => ofIdx (J.getD 0 0)) :: (g.mask.id, triuVal) ::
      (p.toList.map fun m => m.value.id).zip (t.toNNTile c.embedDim D).toList) (by
    simp only [List.map_cons]
    rw [List.map_fst_zip (by simp [hlx])]
    exact hnd)
  have e1 : env ids.id = x := henv (ids.id, x) (List.mem_cons_self ..)
  have e2 : env pos.id = fun J => ofIdx (J.getD 0 0) := henv (pos.id, fun J => ofIdx (J.getD 0 0)) (List.mem_cons_of_mem _ (List.mem_cons_self ..))
  have e3 : env g.mask.id = triuVal := henv (g.mask.id, triuVal) (List.mem_cons_of_mem _ (List.mem_cons_of_mem _ (List.mem_cons_self ..)))
  have e4 : p.toList.map (fun m => env m.value.id) = (t.toNNTile c.embedDim D).toList := by
    refine List.ext_getElem (by simp [hlx]) fun i a1 a2 => ?_
    rw [List.getElem_map]
    rw [List.length_map] at a1
    refine henv (p.toList[i].value.id, (t.toNNTile c.embedDim D).toList[i]) ?_
    refine List.mem_cons_of_mem _ (List.mem_cons_of_mem _ (List.mem_cons_of_mem _ ?_))
    refine List.mem_iff_getElem.2 ⟨i, by rw [List.length_zip, List.length_map, hlx, Nat.min_self]; exact a1, ?_⟩
    rw [List.getElem_zip, List.getElem_map]
  have e5 : (p.map fun m => env m.value.id) = t.toNNTile c.embedDim D := by
    refine GptP.ext_toList ?_ (by rw [GptP.toList_map, e4])
    have := hlx
    rw [GptP.toList_length, GptP.toList_length] at this
    simp only [GptP.map, List.length_map]
    omega
  have hfw' := hfw s env hr (by
    intro m hm
    simp only [List.cons_append, List.nil_append, List.mem_cons] at hm
    rcases hm with rfl | rfl | rfl | hm
    · change ids.Holds s (env ids.id)
      rw [e1]; exact hids
    · change pos.Holds s (env pos.id)
      rw [e2]; exact hpos
    · change g.mask.Holds s (env g.mask.id)
      rw [e3]; exact hM
    · obtain ⟨i, hi, rfl⟩ := List.mem_iff_getElem.1 hm
      rw [GptP.Hold, List.forall₂_iff_get] at hP
      have := hP.2 i hi (by rw [hlx]; exact hi)
      simp only [List.get_eq_getElem, ← e4, List.getElem_map] at this
      exact this) e3 (by rw [e1]; exact hx) (by
    intro J hJ
    obtain ⟨j, rfl⟩ := List.length_eq_one_iff.1 hJ.length
    simp only [InBox_cons, InBox_nil, and_true] at hJ
    rw [e2]
    simp only [List.getD_cons_zero, ho]
    omega)
  refine hfw'.imp (fun _ h => h) fun s' _ hs' => ?_
  have h2 := hs'.1
  rw [e5, e1, e2] at h2
  refine holds_congr h2 fun I hI => ?_
  rw [hout] at hI
  obtain ⟨v, s, n, rfl⟩ := List.length_eq_three.1 hI.length
  exact (C61_function (z := ⟨c.embedDim, S, c.nHead, D, c.innerDim, c.eps, k.spec⟩) hf.heads.1 t (fun J => (asIdx (x J)).toNat) (pos := fun J => (asIdx (ofIdx (J.getD 0 0))).toNat)
    (fun s => by simp [ho]) val v s n).1

theorem GptP.Hold.keep {p : GptP Moments} {s s' : Store ℝ} {x : GptP (List Nat → ℝ)} (h : p.Hold s x) {ids : List Nat} (o : OnlyChanged ids s s') (hi : ∀ m ∈ p.toList, m.value.id ∉ ids) :
    p.Hold s' x := by
  rw [GptP.Hold, List.forall₂_iff_get] at h ⊢
  exact ⟨h.1, fun i h1 h2 => o.holds (h.2 i h1 h2) (hi _ (List.get_mem ..))⟩

/-- Members of the list of normalizations are parameters. -/
theorem norms_mem {p : GptP Moments} {q : Moments × Moments} (hq : q ∈ p.norms) : q.1 ∈ p.toList ∧ q.2 ∈ p.toList := by
  simp only [GptP.norms, List.mem_append, List.mem_flatMap, GptBlockP.norms, List.mem_cons, List.not_mem_nil, or_false] at hq
  simp only [GptP.toList, List.mem_cons, List.mem_append, List.mem_flatMap, List.not_mem_nil, or_false]
  rcases hq with ⟨b, hb, rfl | rfl⟩ | rfl
  · exact ⟨.inr (.inr (.inl ⟨b, hb, by simp [GptBlockP.toList]⟩)), .inr (.inr (.inl ⟨b, hb, by simp [GptBlockP.toList]⟩))⟩
  · exact ⟨.inr (.inr (.inl ⟨b, hb, by simp [GptBlockP.toList]⟩)), .inr (.inr (.inl ⟨b, hb, by simp [GptBlockP.toList]⟩))⟩
  · simp

/-- **`from_torch`, then `forward_async`.** For every PyTorch model `a` (of the configuration of the constructor) with the parameters `t`, and every tiling: `from_torch` succeeds, and after it, whatever
admissible tokens `x` are put into the tensor of tokens, `forward_async` leaves in the last activation the logits of the PyTorch model for these tokens. -/
theorem C61_from_torch {next : Nat} {c : Gpt2Config ℝ} {S B tS tB D : Nat} {k : ActKind} (hf : c.Fits ⟨next + 1, [S, B], [tS, tB]⟩ ⟨next, [S], [tS]⟩ S B tS tB D k) (hS : S ≤ c.maxPos)
    {ofIdx : Nat → ℝ} (ho : ∀ n : Nat, asIdx (ofIdx n) = n) (h1 : asIdx 1 ≠ 0) (h0 : asIdx 0 = 0) (val : ℝ) {a : TorchGpt (NdArray ℝ)} {t : TorchGpt (List Nat → ℝ)}
    (ha : a.Is c.vocabSize c.maxPos c.embedDim c.innerDim t) (hl : a.blocks.length = c.nLayers) :
    ∃ (g : TorchedGpt2 ℝ) (layers : List (PyLayer ℝ)) (p : GptP Moments) (out : Moments), gpt2FromTorchInit B tB S tS c val next = .ok g ∧ g.ids = ⟨next + 1, [S, B], [tS, tB]⟩ ∧
      g.model.model.activations.getLast? = some (.moments out) ∧ out.value.shape = [c.vocabSize, S, B] ∧ g.model.model.parameters = p.toList.map .moments ∧
      g.model.model.layers = layers ∧
      (let given : List Moments := [⟨g.ids, g.ids, false⟩, ⟨g.pos, g.pos, false⟩, maskMoments g.model.mask] ++ p.toList
      let net := netOf asIdx invalidate layers
      (∃ s, NetReady given net s) ∧
      ∀ (tmpId : Nat) (s : Store ℝ), tmpId ∉ netIds given net → NetReady given net s → ∃ s1, gpt2FromTorchLoad g c ofIdx a.named tmpId s = .ok s1 ∧ NetReady given net s1 ∧
        p.Hold s1 (t.toNNTile c.embedDim D) ∧
        ∀ (s2 : Store ℝ) (x : List Nat → ℝ), OnlyChanged [g.ids.id, tmpId] s1 s2 → g.ids.Ready s2 → g.ids.Holds s2 x →
          (∀ J, InBox [S, B] J → 0 ≤ asIdx (x J) ∧ asIdx (x J) < c.vocabSize) →
          Runs (g.model.model.forwardAsync asIdx invalidate) s2 (fwdIds net) (fun s3 => out.value.Holds s3 (fun I =>
            torchGpt ⟨c.embedDim, S, c.nHead, D, c.innerDim, c.eps, k.spec⟩ (maskedSoftmax S val) t (fun n s => (asIdx (x [s, n])).toNat) (I.getD 2 0) (I.getD 1 0) (I.getD 0 0)))) := by
  obtain ⟨g, layers, p, out, e, hlast, hpar, hout, hlen, hmask, hsh, hln, hlay, hnet, hus, htm, hfw⟩ :=
    torch_forward (asIdx := asIdx) (invalidate := invalidate) hf hS ho h1 h0 val
  obtain ⟨zS, zB, zt, zu⟩ := hf.sizes
  have wpos : newTensor next [S] [tS] = .ok ⟨next, [S], [tS]⟩ := newTensor_ok (by simp [Pos, *])
  have wids : newTensor (next + 1) [S, B] [tS, tB] = .ok ⟨next + 1, [S, B], [tS, tB]⟩ := newTensor_ok (by simp [Pos, *])
  refine ⟨⟨⟨next + 1, [S, B], [tS, tB]⟩, ⟨next, [S], [tS]⟩, g⟩, layers, p, out, ?_, rfl, hlast, hout, hpar, hlay, ?_⟩
  · rw [gpt2FromTorchInit, wpos, M.bind_ok, wids, M.bind_ok, e, M.bind_ok]
  intro given net
  set ids : Tensor := ⟨next + 1, [S, B], [tS, tB]⟩ with hids
  set pos : Tensor := ⟨next, [S], [tS]⟩ with hpos
  have gmem : ∀ m ∈ given, m = ⟨ids, ids, false⟩ ∨ m = ⟨pos, pos, false⟩ ∨ m = maskMoments g.mask ∨ m ∈ p.toList := by
    intro m hm
    simpa only [given, List.cons_append, List.nil_append, List.mem_cons] using hm
  have pmem : ∀ m ∈ p.toList, m ∈ given := fun m hm => List.mem_append_right _ hm
  have kmem : maskMoments g.mask ∈ given := List.mem_cons_of_mem _ (List.mem_cons_of_mem _ (List.mem_cons_self ..))
  have smem : (⟨pos, pos, false⟩ : Moments) ∈ given := List.mem_cons_of_mem _ (List.mem_cons_self ..)
  have tmem : (⟨ids, ids, false⟩ : Moments) ∈ given := List.mem_cons_self ..
  have hnd := ids_nodup hnet.ids
  change (ids.id :: pos.id :: g.mask.id :: p.toList.map fun m => m.value.id).Nodup at hnd
  simp only [List.nodup_cons, List.mem_cons, not_or] at hnd
  obtain ⟨⟨d1, d2, d3⟩, ⟨d4, d5⟩, d6, d7⟩ := hnd
  have hne : ∀ m ∈ p.toList, ids.id ≠ m.value.id ∧ pos.id ≠ m.value.id ∧ g.mask.id ≠ m.value.id := fun m hm =>
    ⟨fun h => d3 (h ▸ List.mem_map_of_mem hm), fun h => d5 (h ▸ List.mem_map_of_mem hm), fun h => d6 (h ▸ List.mem_map_of_mem hm)⟩
  refine ⟨?_, ?_⟩
  · obtain ⟨s, hs, -⟩ := C37_registered hnet (by
      intro m hm
      rcases List.mem_append.1 hm with hm | hm
      · rcases gmem m hm with rfl | rfl | rfl | hm
        · exact ⟨by simp [Tensor.WF, Pos, *], rfl, rfl⟩
        · exact ⟨by simp [Tensor.WF, Pos, *], rfl, rfl⟩
        · rw [hmask]; exact ⟨by simp [Tensor.WF, Pos, maskMoments, *], rfl, rfl⟩
        · exact (hus m (List.mem_append_left _ hm)).1
      · exact (hus m (List.mem_append_right _ hm)).1) htm (fun _ _ => 0) (fun _ _ => 0)
    exact ⟨s, hs⟩
  intro tmpId s htmp hr
  have ht : ∀ m ∈ given, tmpId ≠ m.value.id := fun m hm h => htmp (h ▸ mem_netIds hm)
  have tpos : tmpId ≠ pos.id := ht _ smem
  have tids : tmpId ≠ ids.id := ht _ tmem
  have tmask : tmpId ≠ g.mask.id := ht _ kmem
  -- positions
  obtain ⟨sa, ea, va, ra, oa⟩ := C46_from_array (x := fun J => ofIdx (J.getD 0 0)) (hr.1 _ (List.mem_append_left _ smem)).1 tpos (a := npArange ofIdx S) ⟨rfl, by simp [npArange]⟩ (by
    intro I hI
    obtain ⟨i, rfl⟩ := List.length_eq_one_iff.1 hI.length
    simp [npArange, npIndex, lin])
  have hra : NetReady given net sa := hr.keep hnet.ids oa (by
    intro i hi
    simp only [List.mem_cons, List.not_mem_nil, or_false] at hi
    rcases hi with rfl | rfl
    · exact .inr ⟨_, smem, rfl, ra⟩
    · exact .inl htmp)
  -- mask and normalizations
  have hmid : g.mask.id = next + 2 := by rw [hmask]
  obtain ⟨sb, eb, vb, wb, rb, ob⟩ := C48_setup (tmpId := tmpId) hmask hln (s := sa) (hra.1 _ (List.mem_append_left _ kmem)).1 (by rw [← hmid]; exact tmask) (by
    intro q hq
    obtain ⟨q1, q2⟩ := norms_mem hq
    refine ⟨⟨(hra.1 _ (List.mem_append_left _ (pmem _ q1))).1, ?_, Ne.symm (ht _ (pmem _ q1))⟩, (hra.1 _ (List.mem_append_left _ (pmem _ q2))).1, ?_, Ne.symm (ht _ (pmem _ q2))⟩
    · rw [← hmid]; exact Ne.symm (hne _ q1).2.2
    · rw [← hmid]; exact Ne.symm (hne _ q2).2.2)
  have hrb : NetReady given net sb := hra.keep hnet.ids ob (by
    intro i hi
    simp only [List.mem_cons, List.mem_flatMap, List.not_mem_nil, or_false] at hi
    rcases hi with rfl | rfl | ⟨q, hq, rfl | rfl⟩
    · exact .inr ⟨_, kmem, hmid, rb⟩
    · exact .inl htmp
    · exact .inr ⟨_, pmem _ (norms_mem hq).1, rfl, (wb q hq).2.2.1⟩
    · exact .inr ⟨_, pmem _ (norms_mem hq).2, rfl, (wb q hq).2.2.2⟩)
  have vab : pos.Holds sb (fun J => ofIdx (J.getD 0 0)) := by
    refine ob.holds (by simpa [npIndex] using va) ?_
    simp only [List.mem_cons, List.mem_flatMap, List.not_mem_nil, or_false, not_or, not_exists, not_and]
    refine ⟨by rw [← hmid]; exact d4, Ne.symm tpos, fun q hq => ⟨(hne _ (norms_mem hq).1).2.1, (hne _ (norms_mem hq).2).2.1⟩⟩
  -- parameters
  obtain ⟨sc, ec, vc, rc, oc⟩ := C60_from_torch hsh hf.heads.1 hf.embed.1 d7 (fun m hm => ht m (pmem m hm)) ha (by rw [hl, hlen]) (s := sb)
    (fun m hm => (hrb.1 m (List.mem_append_left _ (pmem m hm))).1)
  have hrc : NetReady given net sc := hrb.keep hnet.ids oc (by
    intro i hi
    rcases List.mem_cons.1 hi with rfl | hi
    · exact .inl htmp
    · obtain ⟨m, hm, rfl⟩ := List.mem_map.1 hi
      exact .inr ⟨m, pmem m hm, rfl, rc m hm⟩)
  have hH : c.nHead ≠ 0 := by
    intro h
    have := hf.heads.1
    have h2 := hf.embed.1
    rw [h, Nat.mul_zero] at this
    omega
  refine ⟨sc, ?_, hrc, vc, ?_⟩
  · change (fromArray pos tmpId (npArange ofIdx S) s >>= fun s => g.setup tmpId s >>= fun s => _) = _
    rw [ea, M.bind_ok, eb, M.bind_ok]
    change (throwIf (c.nHead = 0) "ZeroDivisionError" >>= fun _ => fromTorchParams c.embedDim c.nHead g.model.parameters tmpId a.named (0, sb) >>= fun st => Except.ok st.2) = _
    rw [throwIf_neg hH, M.bind_ok, hpar, ec, M.bind_ok]
  intro s2 x o2 r2 v2 hx
  have hr2 : NetReady given net s2 := hrc.keep hnet.ids o2 (by
    intro i hi
    simp only [List.mem_cons, List.not_mem_nil, or_false] at hi
    rcases hi with rfl | rfl
    · exact .inr ⟨_, tmem, rfl, r2⟩
    · exact .inl htmp)
  refine hfw s2 t x hr2 ?_ ?_ ?_ v2 hx
  · refine vc.keep o2 fun m hm => ?_
    simp only [List.mem_cons, List.not_mem_nil, or_false, not_or]
    exact ⟨Ne.symm (hne m hm).1, Ne.symm (ht m (pmem m hm))⟩
  · refine o2.holds (oc.holds vb ?_) ?_
    · intro h
      rcases List.mem_cons.1 h with h | h
      · exact tmask h.symm
      · exact d6 h
    · simp only [List.mem_cons, List.not_mem_nil, or_false, not_or]
      exact ⟨Ne.symm d2, Ne.symm tmask⟩
  · refine o2.holds (oc.holds vab ?_) ?_
    · intro h
      rcases List.mem_cons.1 h with h | h
      · exact tpos h.symm
      · exact d5 h
    · simp only [List.mem_cons, List.not_mem_nil, or_false, not_or]
      exact ⟨Ne.symm d1, Ne.symm tpos⟩

/-- **`to_torch`.** Whatever the contents `x` of the parameters of the model are (after training, say): `to_torch` gives a PyTorch model of the same configuration new parameters with
which the PyTorch model computes, for all tokens, the logits which `forward_async` of the NNTile model computes. -/
theorem C61_to_torch {next : Nat} {c : Gpt2Config ℝ} {S B tS tB D : Nat} {k : ActKind} (hf : c.Fits ⟨next + 1, [S, B], [tS, tB]⟩ ⟨next, [S], [tS]⟩ S B tS tB D k) (hS : S ≤ c.maxPos)
    {ofIdx : Nat → ℝ} (ho : ∀ n : Nat, asIdx (ofIdx n) = n) (h1 : asIdx 1 ≠ 0) (h0 : asIdx 0 = 0) (val : ℝ) :
    let ids : Tensor := ⟨next + 1, [S, B], [tS, tB]⟩
    let pos : Tensor := ⟨next, [S], [tS]⟩
    ∃ (g : Gpt2Model ℝ) (layers : List (PyLayer ℝ)) (p : GptP Moments) (out : Moments),
      gpt2 ⟨ids, ids, false⟩ ⟨pos, pos, false⟩ c val (next + 2) = .ok g ∧ g.model.activations.getLast? = some (.moments out) ∧ g.model.parameters = p.toList.map .moments ∧
      out.value.shape = [c.vocabSize, S, B] ∧ g.model.layers = layers ∧
      (let given : List Moments := [⟨ids, ids, false⟩, ⟨pos, pos, false⟩, maskMoments g.mask] ++ p.toList
      let net := netOf asIdx invalidate layers
      ∀ (tmpId : Nat) (s : Store ℝ) (x : GptP (List Nat → ℝ)) (y : List Nat → ℝ) (a : TorchGpt (NdArray ℝ)) (t : TorchGpt (List Nat → ℝ)), tmpId ∉ netIds given net → NetReady given net s →
        p.Hold s x → g.mask.Holds s triuVal → pos.Holds s (fun J => ofIdx (J.getD 0 0)) → ids.Holds s y → (∀ J, InBox [S, B] J → 0 ≤ asIdx (y J) ∧ asIdx (y J) < c.vocabSize) →
        a.Is c.vocabSize c.maxPos c.embedDim c.innerDim t → a.blocks.length = c.nLayers →
        ∃ (b : TorchGpt (NdArray ℝ)) (t' : TorchGpt (List Nat → ℝ)) (s' : Store ℝ), gpt2ToTorch c.embedDim g.model.parameters tmpId a.named (0, s) = .ok (b.named, p.toList.length, s') ∧
          b.Is c.vocabSize c.maxPos c.embedDim c.innerDim t' ∧
          Runs (g.model.forwardAsync asIdx invalidate) s' (fwdIds net) (fun s3 => out.value.Holds s3 (fun I =>
            torchGpt ⟨c.embedDim, S, c.nHead, D, c.innerDim, c.eps, k.spec⟩ (maskedSoftmax S val) t' (fun n s => (asIdx (y [s, n])).toNat) (I.getD 2 0) (I.getD 1 0) (I.getD 0 0)))) := by
  intro ids pos
  obtain ⟨g, layers, p, out, e, hlast, hpar, hout, hlen, hmask, hsh, hln, hlay, hnet, hus, htm, hfw⟩ :=
    torch_forward (asIdx := asIdx) (invalidate := invalidate) hf hS ho h1 h0 val
  refine ⟨g, layers, p, out, e, hlast, hpar, hout, hlay, ?_⟩
  intro given net tmpId s x y a t htmp hr hP hM hpos hids hy ha hl
  have ht : ∀ m ∈ given, tmpId ≠ m.value.id := fun m hm h => htmp (h ▸ mem_netIds hm)
  have pmem : ∀ m ∈ p.toList, m ∈ given := fun m hm => List.mem_append_right _ hm
  have hnd := ids_nodup hnet.ids
  change (ids.id :: pos.id :: g.mask.id :: p.toList.map fun m => m.value.id).Nodup at hnd
  simp only [List.nodup_cons] at hnd
  have hlx : p.blocks.length = x.blocks.length := by
    have := hP.length_eq
    rw [GptP.toList_length, GptP.toList_length] at this
    omega
  obtain ⟨b, s', eb, hb, o⟩ := C60_to_torch hsh hf.heads.1 hf.embed.1 hnd.2.2.2 (fun m hm => ht m (pmem m hm)) ha (by rw [hl, hlen])
    (fun m hm => (hr.1 m (List.mem_append_left _ (pmem m hm))).1) hP
  have hn1 : ∀ i, tmpId ≠ i → i ∉ [tmpId] := fun i h => by simpa using Ne.symm h
  refine ⟨b, x.toTorch c.embedDim D, s', by rw [hpar]; exact eb, hb, ?_⟩
  refine hfw s' (x.toTorch c.embedDim D) y (hr.keep hnet.ids o (by simpa using .inl htmp)) ?_ ?_ ?_ ?_ hy
  · exact ((GptP.hold_back hsh hf.heads.1 hlx).2 hP).keep o fun m hm => hn1 _ (ht m (pmem m hm))
  · exact o.holds hM (hn1 _ (ht _ (show maskMoments g.mask ∈ given from List.mem_cons_of_mem _ (List.mem_cons_of_mem _ (List.mem_cons_self ..)))))
  · exact o.holds hpos (hn1 _ (ht _ (show (⟨pos, pos, false⟩ : Moments) ∈ given from List.mem_cons_of_mem _ (List.mem_cons_self ..))))
  · exact o.holds hids (hn1 _ (ht _ (show (⟨ids, ids, false⟩ : Moments) ∈ given from List.mem_cons_self ..)))

/-! ### The hypotheses can be met -/

theorem gptTorchExample : gptExampleConfig.Fits ⟨1, [3, 2], [2, 1]⟩ ⟨0, [3], [2]⟩ 3 2 2 1 2 .gelutanh := by
  constructor <;> simp [gptExampleConfig]

/-- From any PyTorch model with two blocks: it is loaded, the tokens `(s + 4 n) mod 11` are put into the model, and forward propagation computes the logits. -/
example (t : TorchGpt (List Nat → ℝ)) (ht : t.blocks.length = 2) : ∃ (g : TorchedGpt2 ℝ) (out : Moments) (tmpId : Nat) (s s1 s2 : Store ℝ) (ids : List Nat),
    gpt2FromTorchInit 2 1 3 2 gptExampleConfig (-1000) 0 = .ok g ∧
    gpt2FromTorchLoad g gptExampleConfig (fun n => (n : ℝ)) (t.arrays 11 5 4 8).named tmpId s = .ok s1 ∧
    fromArray g.ids tmpId ⟨[3, 2], ⟨6, fun k => some (((k % 3 + 4 * (k / 3)) % 11 : ℕ) : ℝ)⟩⟩ s1 = .ok s2 ∧
    Runs (g.model.model.forwardAsync (fun x => ⌊x⌋) true) s2 ids (fun s3 => out.value.Holds s3 (fun I =>
      torchGpt ⟨4, 3, 2, 2, 8, 1 / 100000, ActKind.gelutanh.spec⟩ (maskedSoftmax 3 (-1000)) t (fun n s => (s + 4 * n) % 11) (I.getD 2 0) (I.getD 1 0) (I.getD 0 0))) := by
  obtain ⟨g, layers, p, out, e1, e2, -, -, -, -, ⟨s, hs⟩, h⟩ := C61_from_torch (asIdx := fun x => ⌊x⌋) (invalidate := true) gptTorchExample (by simp [gptExampleConfig])
    (ofIdx := fun n => (n : ℝ)) (fun n => Int.floor_natCast n) (by simp) (by simp) (-1000) (t.arrays_is 11 5 4 8) (by simpa [TorchGpt.arrays, gptExampleConfig] using ht)
  obtain ⟨tmpId, htmp⟩ := Infinite.exists_notMem_finset (netIds ([⟨g.ids, g.ids, false⟩, ⟨g.pos, g.pos, false⟩, maskMoments g.model.mask] ++ p.toList)
    (netOf (fun x : ℝ => ⌊x⌋) true layers)).toFinset
  rw [List.mem_toFinset] at htmp
  obtain ⟨s1, l1, l2, l3, l4⟩ := h tmpId s htmp hs
  have hid : tmpId ≠ g.ids.id := fun e => htmp (e ▸ mem_netIds (m := ⟨g.ids, g.ids, false⟩) (by simp))
  obtain ⟨s2, f1, f2, f3, f4⟩ := C46_from_array (T := g.ids) (s := s1) (tmpId := tmpId) (x := fun J => (((J.getD 0 0 + 4 * J.getD 1 0) % 11 : ℕ) : ℝ))
    (a := ⟨[3, 2], ⟨6, fun k => some (((k % 3 + 4 * (k / 3)) % 11 : ℕ) : ℝ)⟩⟩)
    (l2.1 ⟨g.ids, g.ids, false⟩ (by simp)).1 hid (by rw [e2]; exact ⟨rfl, rfl⟩) (by
      intro I hI
      obtain ⟨i, j, rfl⟩ := List.length_eq_two.1 hI.length
      simp only [InBox_cons, InBox_nil, and_true] at hI
      simp only [lin, npIndex, e2, List.getD_cons_zero, List.getD_cons_succ, reduceCtorEq, if_false]
      congr 4 <;> omega)
  have hh := l4 s2 _ f4 f3 f2 (by
    intro J _
    refine ⟨Int.floor_nonneg.2 (Nat.cast_nonneg _), ?_⟩
    beta_reduce
    rw [Int.floor_natCast]
    have : (J.getD 0 0 + 4 * J.getD 1 0) % 11 < 11 := Nat.mod_lt _ (by omega)
    simp only [gptExampleConfig]
    omega)
  simp only [Int.floor_natCast, Int.toNat_natCast, List.getD_cons_zero, List.getD_cons_succ] at hh
  exact ⟨g, out, tmpId, s, s1, s2, _, e1, l1, f1, hh⟩

end NNTile
