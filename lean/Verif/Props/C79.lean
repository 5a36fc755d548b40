import Verif.Lib.UnregisterMixer
import Verif.Props.C65
import Verif.Props.C38
import Verif.Props.C48
import Verif.Props.C62
/-!
# C79: `unregister` of models, losses and optimizers
-/
namespace NNTile
variable {α : Type}

/-- What `unregister` of an input means in the theorems below: its value, and its gradient if and only if a gradient is required; without one the method `unregister` of `None` is not called. -/
theorem C79_input {x : Moments} {T : Tensor} : T ∈ x.unregister ↔ T = x.value ∨ x.gradRequired = true ∧ T = x.grad := by
  cases h : x.gradRequired <;> simp [Moments.unregister, h]

/-- **`DeepReLU`.** However the constructor is called: if it succeeds, `unregister` of the model succeeds, and it is called for the tensors of the input and for every tensor which the constructor has made
(numbers `next` to `next' - 1`), and for no other tensor. -/
theorem C79_deep_relu {x : Moments} {side : Side} {ndim : Int} {addShape addTile : Nat} {nlayers : Int} {nClasses next next' : Nat} {bias : Bool} {m : BaseModel α}
    (h : deepRelu x side ndim addShape addTile nlayers nClasses next bias = .ok (m, next')) :
    ∃ ts, m.unregister = .ok ts ∧ Releases ts x.unregister (m.layers.flatMap PyLayer.unused) next next' := by
  simp only [deepRelu, M.bind_eq_ok] at h
  obtain ⟨_, _, _, _, b1, h1, _, _, b2, h2, b3, h3, _, _, b4, h4, h⟩ := h
  have e := Except.ok.inj h
  obtain ⟨rfl, rfl⟩ := Prod.mk.inj e
  have t := (((Track.start [x] next α).linear h1).act h2)
  have t3 := Track.iter (fun b b' hb e => by
    simp only [M.bind_eq_ok] at e
    obtain ⟨_, _, c, hc, _, _, e⟩ := e
    exact (hb.linear hc).act e) t h3
  simpa [BaseModel.init] using (t3.linear h4).releases

/-- **`DeepLinear`.** -/
theorem C79_deep_linear {x : Moments} {side : Side} {ndim : Int} {addShape addTile : Nat} {nlayers : Int} {next next' : Nat} {m : BaseModel α}
    (h : deepLinear x side ndim addShape addTile nlayers next = .ok (m, next')) :
    ∃ ts, m.unregister = .ok ts ∧ Releases ts x.unregister (m.layers.flatMap PyLayer.unused) next next' := by
  simp only [deepLinear, M.bind_eq_ok] at h
  obtain ⟨_, _, _, _, b1, h1, b3, h3, _, _, b4, h4, h⟩ := h
  have e := Except.ok.inj h
  obtain ⟨rfl, rfl⟩ := Prod.mk.inj e
  have t3 := Track.iter (fun b b' hb e => by
    simp only [M.bind_eq_ok] at e
    obtain ⟨_, _, e⟩ := e
    exact hb.linear e) ((Track.start [x] next α).linear h1) h3
  simpa [BaseModel.init] using (t3.linear h4).releases

/-- **`GPT2MLP`.** -/
theorem C79_gpt2_mlp {x : Moments} {e et i it : Nat} {act : String} {redux : Bool} {next next' : Nat} {m : BaseModel α} (h : gpt2Mlp x e et i it act redux next = .ok (m, next')) :
    ∃ ts, m.unregister = .ok ts ∧ Releases ts x.unregister (m.layers.flatMap PyLayer.unused) next next' := by
  simp only [gpt2Mlp, gpt2MlpBuild, M.bind_eq_ok] at h
  obtain ⟨b, ⟨b1, h1, _, _, b2, h2, _, _, h3⟩, h⟩ := h
  have e := Except.ok.inj h
  obtain ⟨rfl, rfl⟩ := Prod.mk.inj e
  simpa [BaseModel.init] using (((Track.start [x] next α).linear h1).act h2 |>.linear h3).releases

private theorem track_mlp {given : List Moments} {first : Nat} {b m : Builder α} (t : Track given first b) {x : Moments} {e et i it : Nat} {act : String} {redux : Bool}
    (h : gpt2MlpBuild x e et i it act redux b.next = .ok m) : Track given first ⟨b.acts ++ m.acts.drop 1, b.layers ++ m.layers, m.next⟩ := by
  simp only [gpt2MlpBuild, Builder.linear, Builder.act, M.bind_eq_ok] at h
  obtain ⟨b1, ⟨l1, h1, e1⟩, _, _, b2, ⟨l2, h2, e2⟩, _, _, l3, h3, e3⟩ := h
  have e1 := Except.ok.inj e1
  subst e1
  have e2 := Except.ok.inj e2
  subst e2
  have e3 := Except.ok.inj e3
  subst e3
  have t1 := t.snoc (l := .linear l1) (y := l1.y) (Linear.own h1)
  have t2 := t1.snoc (l := .act l2) (y := l2.y) (Act.own h2)
  have t3 := t2.snoc (l := .linear l3) (y := l3.y) (Linear.own h3)
  simpa using t3

private theorem track_block [FP α] {given : List Moments} {first : Nat} {b : Builder α} (t : Track given first b) {c : Gpt2Config α} {mask : Tensor} {val : α}
    {r : Builder α × List (Task1 α)} (h : gptBlock c mask val b = .ok r) : Track given first r.1 := by
  simp only [gptBlock, M.bind_eq_ok] at h
  obtain ⟨_, _, r1, h1, _, _, b2, h2, _, _, _, _, b3, h3, _, _, r2, h4, _, _, m, hm, _, _, _, _, b5, h5, h⟩ := h
  have e := Except.ok.inj h
  subst e
  exact (track_mlp ((((t.layerNorm h1).attention h2).add h3).layerNorm h4) hm).add h5

private theorem track_blocks [FP α] {given : List Moments} {first : Nat} {c : Gpt2Config α} {mask : Tensor} {val : α} :
    ∀ {n : Nat} {b : Builder α} {r : Builder α × List (Task1 α)}, Track given first b → gptBlocks c mask val n b = .ok r → Track given first r.1
  | 0, _, _, t, h => by
    have e := Except.ok.inj h
    subst e
    exact t
  | n + 1, b, r, t, h => by
    simp only [gptBlocks, M.bind_eq_ok] at h
    obtain ⟨r1, h1, r2, h2, h⟩ := h
    have e := Except.ok.inj h
    subst e
    have t2 : Track given first r2.1 := track_blocks (track_block t h1) h2
    exact t2

/-- **`GPT2Model`**, with `Attention` or `FlashAttention`, any number of blocks: also the mask is unregistered. -/
theorem C79_gpt2 [FP α] {ids pos : Moments} {c : Gpt2Config α} {val : α} {next : Nat} {g : Gpt2Model α} (h : gpt2 ids pos c val next = .ok g) :
    ∃ ts, g.unregister = .ok ts ∧ Releases ts (ids.unregister ++ pos.unregister) (g.model.layers.flatMap PyLayer.unused) next g.next := by
  simp only [gpt2, M.bind_eq_ok] at h
  obtain ⟨_, _, _, _, mask, hmask, b1, h1, b2, h2, _, _, _, _, b3, h3, r, h4, _, _, r', h5, _, _, b, h6, h⟩ := h
  have e := Except.ok.inj h
  subst e
  have t := ((track_blocks ((((Track.start [ids, pos] (next + 1) α).embedding h1).embedding h2).addSlice h3) h4).layerNorm h5).linear h6
  obtain ⟨ts, e, hr⟩ := t.releases
  refine ⟨ts ++ [mask], ?_, ⟨fun T hT => ?_, fun i i1 i2 i3 => ?_, fun T hT => ?_⟩⟩
  · simp only [Gpt2Model.unregister, e, M.bind_ok]
  · exact List.mem_append_left _ (hr.inputs T (by simpa using hT))
  · by_cases k : i = next
    · exact ⟨mask, by simp, by rw [newTensor_id hmask, k]⟩
    · obtain ⟨T, hT, e⟩ := hr.made i (by omega) i2 i3
      exact ⟨T, List.mem_append_left _ hT, e⟩
  · have hle := t.le
    rcases List.mem_append.1 hT with hT | hT
    · rcases hr.only T hT with c | c
      · exact .inl (by simpa using c)
      · exact .inr ⟨by omega, c.2⟩
    · obtain rfl := List.mem_singleton.1 hT
      have := newTensor_id hmask
      exact .inr ⟨by omega, by dsimp only; omega⟩

/-- **`MlpMixer`**, any number of blocks. -/
theorem C79_mlp_mixer [FP α] {x : Moments} {e : Nat} {n : Int} {k next : Nat} {r : MlpMixer α × List (Task1 α) × Nat} (h : mlpMixer x e n k next = .ok r) :
    Releases r.1.unregister x.unregister (r.1.layers.flatMap MixLayer.unused) next r.2.2 := by
  simp only [mlpMixer, M.bind_eq_ok] at h
  obtain ⟨_, _, _, _, _, _, l, hl, b, hb, _, _, g, hg, c, hc, h⟩ := h
  have e := Except.ok.inj h
  subst e
  have t0 := (MixTrack.start [x] next α).snoc (l := .linear l) (y := l.y) (Linear.own hl)
  have t1 := MixTrack.mixers (b := ⟨[x, l.y], [.linear l], next + 6, []⟩) t0 hb
  have t2 := t1.snoc (l := .gap g) (y := g.y) (GapLayer.own hg)
  have t3 := t2.snoc (l := .linear c) (y := c.y) (Linear.own hc)
  refine ⟨fun T hT => ?_, t3.made, fun T hT => ?_⟩
  · exact List.mem_append_right _ (List.mem_flatMap.2 ⟨x, t3.inputs x (by simp), hT⟩)
  · have := t3.only T hT
    simpa using this

theorem newTensorD_id {i : Nat} {S B : List Nat} {n : Nat} {T : Tensor} (h : newTensorD i S B n = .ok T) : T.id = i := by
  simp only [newTensorD, M.bind_eq_ok] at h
  obtain ⟨T', h', _, _, h⟩ := h
  have e := Except.ok.inj h
  subst e
  exact newTensor_id h'

/-- **`Frob`.** `unregister` is called for the tensors which the generator made; the tensors of the model output are left to the model. -/
theorem C79_frob {x : Moments} {next : Nat} {l : Frob} (h : Frob.generate x next = .ok l) : Releases l.unregister [] [] next (next + 4) := by
  simp only [Frob.generate, M.bind_eq_ok] at h
  obtain ⟨a, h1, b, h2, c, h3, d, h4, h⟩ := h
  have e := Except.ok.inj h
  subst e
  have o : Own [d, b, c, a] [] next (next + 4) := Own.of_ids (ids := [next + 3, next + 1, next + 2, next])
    (by simp [newTensorD_id h1, newTensorD_id h2, newTensorD_id h3, newTensorD_id h4]) (by intro i ha hb _; simp; omega) (by intro i hi; simp at hi; omega)
  exact ⟨by simp, o.1, fun T hT => .inr (o.2 T hT)⟩

/-- **`CrossEntropy`.** -/
theorem C79_cross_entropy {x : Moments} {next : Nat} {redux : Bool} {scale : α} {l : CrossEntropy α} (h : CrossEntropy.generate x next redux scale = .ok l) :
    Releases l.unregister [] [] next (next + 4) := by
  simp only [CrossEntropy.generate, M.bind_eq_ok] at h
  obtain ⟨a, h1, b, h2, c, h3, d, h4, h⟩ := h
  have e := Except.ok.inj h
  subst e
  have o : Own [d, b, c, a] [] next (next + 4) := Own.of_ids (ids := [next + 3, next + 1, next + 2, next])
    (by simp [newTensorD_id h1, newTensorD_id h2, newTensorD_id h3, newTensorD_id h4]) (by intro i ha hb _; simp; omega) (by intro i hi; simp at hi; omega)
  exact ⟨by simp, o.1, fun T hT => .inr (o.2 T hT)⟩

theorem newStates_own : ∀ {ps : List Moments} {next : Nat} {ts : List Tensor}, newStates next ps = .ok ts → Own ts [] next (next + ps.length)
  | [], next, ts, h => by
    have e := Except.ok.inj h
    subst e
    exact ⟨fun i h1 h2 => absurd h2 (by simpa using h1), by simp⟩
  | p :: ps, next, ts, h => by
    simp only [newStates, M.bind_eq_ok] at h
    obtain ⟨T, hT, Ts, hTs, h⟩ := h
    have e := Except.ok.inj h
    subst e
    have o := newStates_own hTs
    have hid := newTensor_id hT
    rw [List.length_cons]
    refine ⟨fun i h1 h2 _ => ?_, fun T' hT' => ?_⟩
    · by_cases c : i = next
      · exact ⟨T, by simp, by omega⟩
      · obtain ⟨T', hT', e⟩ := o.1 i (by omega) (by omega) (by simp)
        exact ⟨T', by simp [hT'], e⟩
    · rcases List.mem_cons.1 hT' with rfl | hT'
      · omega
      · have := o.2 T' hT'
        omega

/-- **`SGD`.** With momentum one tensor for each parameter is made and unregistered, without momentum none. -/
theorem C79_sgd [FP α] {params : List Moments} {lr momentum wd damping : α} {next : Nat} {nesterov : Bool} {o : SGD α} (h : SGD.init params lr next momentum nesterov wd damping = .ok o) :
    Releases o.unregister [] [] next (if FP.ltb 0 momentum then next + params.length else next) := by
  by_cases c : FP.ltb 0 momentum = true
  · simp only [SGD.init, c, if_true, M.bind_eq_ok] at h
    obtain ⟨ts, hts, h⟩ := h
    have e := Except.ok.inj h
    subst e
    rw [SGD.unregister, if_pos c, if_pos c]
    have w := newStates_own hts
    exact ⟨by simp, w.1, fun T hT => .inr (w.2 T hT)⟩
  · simp only [SGD.init, c, M.bind_ok] at h
    have e := Except.ok.inj h
    subst e
    rw [SGD.unregister, if_neg c, if_neg c]
    exact ⟨by simp, fun i h1 h2 => absurd h2 (by omega), by simp⟩

theorem newMoments_own : ∀ {ps : List Moments} {next : Nat} {r : List Tensor × List Tensor}, newMoments next ps = .ok r →
    r.1.length = ps.length ∧ r.2.length = ps.length ∧ Own (r.1 ++ r.2) [] next (next + 2 * ps.length)
  | [], next, r, h => by
    have e := Except.ok.inj h
    subst e
    exact ⟨rfl, rfl, fun i h1 h2 => absurd h2 (by simpa using h1), by simp⟩
  | p :: ps, next, r, h => by
    simp only [newMoments, M.bind_eq_ok] at h
    obtain ⟨m, hm, v, hv, r', hr, h⟩ := h
    have e := Except.ok.inj h
    subst e
    obtain ⟨l1, l2, o⟩ := newMoments_own hr
    have h1 := newTensor_id hm
    have h2 := newTensor_id hv
    refine ⟨by simp [l1], by simp [l2], fun i i1 i2 _ => ?_, fun T hT => ?_⟩
    · rw [List.length_cons] at i2
      by_cases c1 : i = next
      · exact ⟨m, by simp, by omega⟩
      · by_cases c2 : i = next + 1
        · exact ⟨v, by simp, by omega⟩
        · obtain ⟨T, hT, e⟩ := o.1 i (by omega) (by omega) (by simp)
          refine ⟨T, ?_, e⟩
          rcases List.mem_append.1 hT with hT | hT <;> simp [hT]
    · rw [List.length_cons]
      have : T = m ∨ T = v ∨ T ∈ r'.1 ++ r'.2 := by
        simp only [List.mem_append, List.mem_cons] at hT ⊢
        tauto
      rcases this with rfl | rfl | hT
      · omega
      · omega
      · have := o.2 T hT
        omega

/-- The numbers which `Adam` without `amsgrad` would have given to the third moments. -/
def adamUnused (amsgrad : Bool) (next n : Nat) : List Nat := if amsgrad then [] else (List.range n).map fun k => next + 3 * k + 2

theorem newMoments3_own {amsgrad : Bool} : ∀ {ps : List Moments} {next : Nat} {r : List Tensor × List Tensor × List Tensor}, newMoments3 amsgrad next ps = .ok r →
    r.1.length = ps.length ∧ r.2.1.length = ps.length ∧ (amsgrad = true → r.2.2.length = ps.length) ∧ (amsgrad = false → r.2.2 = []) ∧
      Own (r.1 ++ r.2.1 ++ r.2.2) (adamUnused amsgrad next ps.length) next (next + 3 * ps.length)
  | [], next, r, h => by
    have e := Except.ok.inj h
    subst e
    exact ⟨rfl, rfl, fun _ => rfl, fun _ => rfl, fun i h1 h2 => absurd h2 (by simpa using h1), by simp⟩
  | p :: ps, next, r, h => by
    have h : ∃ m, newTensor next p.value.shape p.value.basetile = .ok m ∧ ∃ v, newTensor (next + 1) p.value.shape p.value.basetile = .ok v ∧
        ∃ w, (if amsgrad = true then (do
          let w ← newTensor (next + 2) p.value.shape p.value.basetile
          .ok [w]) else .ok [] : M (List Tensor)) = .ok w ∧ ∃ r', newMoments3 amsgrad (next + 3) ps = .ok r' ∧ (.ok (m :: r'.1, v :: r'.2.1, w ++ r'.2.2) : M _) = .ok r := by
      cases amsgrad
      · simp only [newMoments3, M.bind_eq_ok, Bool.false_eq_true, if_false] at h ⊢
        exact h
      · simp only [newMoments3, M.bind_eq_ok, if_true] at h ⊢
        exact h
    obtain ⟨m, hm, v, hv, w, hw, r', hr, h⟩ := h
    have e := Except.ok.inj h
    subst e
    obtain ⟨l1, l2, l3, l4, o⟩ := newMoments3_own hr
    have h1 := newTensor_id hm
    have h2 := newTensor_id hv
    have hw' : (amsgrad = true ∧ ∃ W, w = [W] ∧ W.id = next + 2) ∨ (amsgrad = false ∧ w = []) := by
      cases amsgrad
      · exact .inr ⟨rfl, (Except.ok.inj hw).symm⟩
      · simp only [if_true, M.bind_eq_ok] at hw
        obtain ⟨W, hW, hw⟩ := hw
        exact .inl ⟨rfl, W, (Except.ok.inj hw).symm, newTensor_id hW⟩
    refine ⟨by simp [l1], by simp [l2], fun c => ?_, fun c => ?_, fun i i1 i2 i3 => ?_, fun T hT => ?_⟩
    · rcases hw' with ⟨_, W, rfl, _⟩ | ⟨c', _⟩
      · simp [l3 c]
      · rw [c] at c'
        cases c'
    · rcases hw' with ⟨c', _⟩ | ⟨_, rfl⟩
      · rw [c] at c'
        cases c'
      · simp [l4 c]
    · rw [List.length_cons] at i2 i3
      by_cases c1 : i = next
      · exact ⟨m, by simp, by omega⟩
      · by_cases c2 : i = next + 1
        · exact ⟨v, by simp, by omega⟩
        · by_cases c3 : i = next + 2
          · rcases hw' with ⟨_, W, rfl, hW⟩ | ⟨c', _⟩
            · exact ⟨W, by simp, by omega⟩
            · refine absurd ?_ i3
              rw [adamUnused, if_neg (by simp [c'])]
              exact List.mem_map.2 ⟨0, by simp, by omega⟩
          · obtain ⟨T, hT, e⟩ := o.1 i (by omega) (by omega) (by
              intro hc
              refine i3 ?_
              unfold adamUnused at hc ⊢
              split_ifs at hc ⊢ with ca
              · cases hc
              · obtain ⟨k, hk, e⟩ := List.mem_map.1 hc
                rw [List.mem_range] at hk
                exact List.mem_map.2 ⟨k + 1, by simp; omega, by omega⟩)
            refine ⟨T, ?_, e⟩
            simp only [List.mem_append, List.mem_cons] at hT ⊢
            tauto
    · rw [List.length_cons]
      have : T = m ∨ T = v ∨ T ∈ w ∨ T ∈ r'.1 ++ r'.2.1 ++ r'.2.2 := by
        simp only [List.mem_append, List.mem_cons] at hT ⊢
        tauto
      rcases this with rfl | rfl | hT | hT
      · omega
      · omega
      · rcases hw' with ⟨_, W, rfl, hW⟩ | ⟨_, rfl⟩
        · obtain rfl := List.mem_singleton.1 hT
          omega
        · cases hT
      · have := o.2 T hT
        omega

private theorem pyTensor_ok {l : List Tensor} {i : Nat} (h : i < l.length) : pyTensor l i = .ok l[i] := by
  rw [pyTensor, List.getElem?_eq_getElem h]

/-- The loop of `unregister` goes through all elements of the lists. -/
theorem unregisterMoments_spec {third : Bool} {first second maxs : List Tensor} (h2 : second.length = first.length) (h3 : third = true → maxs.length = first.length) :
    ∃ ts, unregisterMoments third first second maxs = .ok ts ∧ ∀ T, T ∈ ts ↔ T ∈ first ∨ T ∈ second ∨ third = true ∧ T ∈ maxs := by
  have key : ∀ n, n ≤ first.length → ∃ ts, (List.range n).foldlM (fun acc i => do
      let m ← pyTensor first i
      let v ← pyTensor second i
      let w ← if third then (do
        let w ← pyTensor maxs i
        .ok [w]) else .ok []
      .ok (acc ++ [m, v] ++ w)) ([] : List Tensor) = (.ok ts : M (List Tensor)) ∧ ∀ T, T ∈ ts ↔ T ∈ first.take n ∨ T ∈ second.take n ∨ third = true ∧ T ∈ maxs.take n := by
    intro n
    induction n with
    | zero => intro _; exact ⟨[], rfl, by simp⟩
    | succ n ih =>
      intro hn
      obtain ⟨ts, e, ht⟩ := ih (by omega)
      have a1 : n < first.length := by omega
      have a2 : n < second.length := by omega
      have k1 : first.take (n + 1) = first.take n ++ [first[n]] := by rw [List.take_add_one, List.getElem?_eq_getElem a1]; rfl
      have k2 : second.take (n + 1) = second.take n ++ [second[n]] := by rw [List.take_add_one, List.getElem?_eq_getElem a2]; rfl
      rw [List.range_succ, List.foldlM_append, e, M.bind_ok, List.foldlM_cons, pyTensor_ok a1, M.bind_ok, pyTensor_ok a2, M.bind_ok]
      cases third
      · refine ⟨ts ++ [first[n], second[n]], by simp, fun T => ?_⟩
        have := ht T
        rw [k1, k2]
        simp only [List.mem_append, List.mem_cons, List.not_mem_nil, or_false, Bool.false_eq_true, false_and] at this ⊢
        tauto
      · have a3 : n < maxs.length := by have := h3 rfl; omega
        have k3 : maxs.take (n + 1) = maxs.take n ++ [maxs[n]] := by rw [List.take_add_one, List.getElem?_eq_getElem a3]; rfl
        rw [pyTensor_ok a3]
        refine ⟨ts ++ [first[n], second[n]] ++ [maxs[n]], by simp, fun T => ?_⟩
        have := ht T
        rw [k1, k2, k3]
        simp only [List.mem_append, List.mem_cons, List.not_mem_nil, or_false, true_and] at this ⊢
        tauto
  obtain ⟨ts, e, ht⟩ := key first.length (le_refl _)
  refine ⟨ts, e, fun T => ?_⟩
  rw [ht T, List.take_length, ← h2, List.take_length]
  cases third
  · simp
  · rw [h2, ← h3 rfl, List.take_length]

/-- **`FusedAdam` and `FusedAdamW`.** Two tensors for each parameter are made and unregistered. -/
theorem C79_fused {params : List Moments} {lr b1 b2 wd eps : α} {next : Nat} {warmup : Option (α × Int)} {o : Fused α} (h : Fused.init params lr next b1 b2 wd eps warmup = .ok o) :
    ∃ ts, o.unregister = .ok ts ∧ Releases ts [] [] next (next + 2 * params.length) := by
  simp only [Fused.init, M.bind_eq_ok] at h
  obtain ⟨r, hr, h⟩ := h
  have e := Except.ok.inj h
  subst e
  obtain ⟨l1, l2, w⟩ := newMoments_own hr
  obtain ⟨ts, e, ht⟩ := unregisterMoments_spec (third := false) (first := r.1) (second := r.2) (maxs := []) (by omega) (by simp)
  refine ⟨ts, e, by simp, fun i i1 i2 i3 => ?_, fun T hT => .inr (w.2 T ?_)⟩
  · obtain ⟨T, hT, e⟩ := w.1 i i1 i2 i3
    refine ⟨T, (ht T).2 ?_, e⟩
    rcases List.mem_append.1 hT with hT | hT
    · exact .inl hT
    · exact .inr (.inl hT)
  · rcases (ht T).1 hT with hT | hT | hT
    · exact List.mem_append_left _ hT
    · exact List.mem_append_right _ hT
    · cases hT.1

/-- **`Adam`**, with and without `amsgrad`. -/
theorem C79_adam {params : List Moments} {lr b1 b2 wd eps : α} {next : Nat} {amsgrad : Bool} {o : Adam α} (h : Adam.init params lr next b1 b2 amsgrad wd eps = .ok o) :
    ∃ ts, o.unregister = .ok ts ∧ Releases ts [] (adamUnused amsgrad next params.length) next (next + 3 * params.length) := by
  simp only [Adam.init, M.bind_eq_ok] at h
  obtain ⟨r, hr, h⟩ := h
  have e := Except.ok.inj h
  subst e
  obtain ⟨l1, l2, l3, l4, w⟩ := newMoments3_own hr
  obtain ⟨ts, e, ht⟩ := unregisterMoments_spec (third := amsgrad) (first := r.1) (second := r.2.1) (maxs := r.2.2) (by omega) (fun c => by rw [l3 c, l1])
  refine ⟨ts, e, by simp, fun i i1 i2 i3 => ?_, fun T hT => .inr (w.2 T ?_)⟩
  · obtain ⟨T, hT, e⟩ := w.1 i i1 i2 i3
    refine ⟨T, (ht T).2 ?_, e⟩
    simp only [List.mem_append] at hT
    rcases hT with (hT | hT) | hT
    · exact .inl hT
    · exact .inr (.inl hT)
    · refine .inr (.inr ⟨?_, hT⟩)
      by_contra c
      rw [l4 (by simpa using c)] at hT
      cases hT
  · simp only [List.mem_append]
    rcases (ht T).1 hT with hT | hT | hT
    · exact .inl (.inl hT)
    · exact .inl (.inr hT)
    · exact .inr hT.2

open Handle in
/-- **In StarPU.** Let the tensors whose `unregister` is called (possibly several times) have their tiles in the handles `tiles T`, at the end of any history of a program. If data of such a tile is registered
and no object but these handles refers to it afterwards, it is unregistered exactly once, with the call its mode demands; handles of other tensors keep their data. -/
theorem C79_starpu {ops : List Op} {tiles : Tensor → List Nat} {ts : List Tensor} {w w' : World} (h : run World.init ops = .ok w)
    (h' : run w (ts.flatMap fun T => tensorUnregister (tiles T)) = .ok w') :
    (∀ T ∈ ts, ∀ i ∈ tiles T, w'.dataOf i = some none) ∧ (∀ d, w.Alive d → w'.owners d = 0 → w'.Gone d) ∧ ∀ i, (∀ T ∈ ts, i ∉ tiles T) → w'.handles[i]? = w.handles[i]? := by
  have e : (ts.flatMap fun T => tensorUnregister (tiles T)) = tensorUnregister (ts.flatMap tiles) := by
    simp [tensorUnregister, List.map_flatMap]
  rw [e] at h'
  obtain ⟨c1, c2, _, c4, _⟩ := C65_tensor h h'
  refine ⟨fun T hT i hi => c1 i (List.mem_flatMap.2 ⟨T, hT, hi⟩), fun d hd ho => (c4 d hd).1 ho, fun i hi => c2 i fun hc => ?_⟩
  obtain ⟨T, hT, hi'⟩ := List.mem_flatMap.1 hc
  exact hi T hT hi'

private theorem unregister_throws (L : List PyEntry) {l : List Moments} (hl : .list l ∈ L) : Throws (unregisterEntries L) := by
  induction L with
  | nil => cases hl
  | cons e L ih =>
    rw [unregisterEntries]
    cases e with
    | list l => exact ⟨_, rfl⟩
    | moments m =>
      rcases List.mem_cons.1 hl with hl | hl
      · cases hl
      · have t : Throws (unregisterEntries L >>= fun b => .ok (m.unregister ++ b)) := Throws.bind (ih hl)
        exact t

/-- **After `append`** the model cannot be unregistered, whatever the layer is: an exception is raised. -/
theorem C38_append_unregister_refuted (m : BaseModel α) (l : PyLayer α) : Throws (m.append l).unregister := by
  rw [BaseModel.unregister]
  exact Throws.bind (unregister_throws _ (l := [l.output]) (by simp [BaseModel.append]))

/-! ### Examples -/

/-- A `DeepReLU` with four linear layers without bias: numbers 3 and 4 (the bias of the first layer) are unused, 5 and 6 (its output) are unregistered. -/
example : ∃ (m : BaseModel ℝ) (next : Nat) (ts : List Tensor), deepRelu deepExample .R 1 10 4 4 3 1 false = .ok (m, next) ∧ m.unregister = .ok ts ∧
    Releases ts deepExample.unregister (m.layers.flatMap PyLayer.unused) 1 next := by
  obtain ⟨h1, h2, h3⟩ := deepExample_ok
  obtain ⟨acts, layers, next, e1, -⟩ := C37_deep_relu (asIdx := fun _ => 0) (invalidate := false) h1 h2 h3 .R (n := 1) (by decide) (by decide) (width := 10) (tile := 4)
    (nClasses := 3) (nlayers := 4) (by decide) (by decide) (by decide) (by decide) false
  obtain ⟨ts, e, hr⟩ := C79_deep_relu e1
  exact ⟨_, next, ts, e1, e, hr⟩

/-- A linear layer without bias: which numbers are covered. -/
example : ∃ l : Linear, Linear.generate deepExample .R .noTrans 1 [10] [4] 1 false false = .ok l ∧ l.unused = [3, 4] ∧
    ((PyLayer.linear (α := ℝ) l).unregister ++ l.y.unregister).map Tensor.id = [1, 2, 5, 6] := by
  refine ⟨⟨.R, .noTrans, deepExample, ⟨⟨5, [10, 5], [4, 2]⟩, ⟨6, [10, 5], [4, 2]⟩, true⟩, ⟨⟨1, [10, 7], [4, 3]⟩, ⟨2, [10, 7], [4, 3]⟩, true⟩, 1, none, false⟩, ?_, rfl, rfl⟩
  rfl

/-- GPT2 with FlashAttention. -/
example : ∃ (g : Gpt2Model ℝ) (ts : List Tensor), gpt2 ⟨⟨0, [4, 2], [2, 1]⟩, ⟨0, [4, 2], [2, 1]⟩, false⟩ ⟨⟨1, [4], [2]⟩, ⟨1, [4], [2]⟩, false⟩ { gptExampleConfig with flash := true } (-1000) 2 = .ok g ∧
    g.unregister = .ok ts ∧ g.mask ∈ ts ∧ Releases ts [⟨0, [4, 2], [2, 1]⟩, ⟨1, [4], [2]⟩] (g.model.layers.flatMap PyLayer.unused) 2 g.next := by
  obtain ⟨g, -, -, -, -, e, -⟩ := C48_gpt2 (asIdx := fun x => ⌊x⌋) (invalidate := true) gptFlashExample (by decide) (next := 2) (by decide) (-1000)
  obtain ⟨ts, e', hr⟩ := C79_gpt2 e
  refine ⟨g, ts, e, e', ?_, hr⟩
  rw [Gpt2Model.unregister, M.bind_eq_ok] at e'
  obtain ⟨a, -, h⟩ := e'
  rw [← Except.ok.inj h]
  simp

/-- An `MlpMixer` with two blocks. -/
example : ∃ r : MlpMixer ℝ × List (Task1 ℝ) × Nat, mlpMixer mixExample 7 2 3 2 = .ok r ∧ Releases r.1.unregister mixExample.unregister (r.1.layers.flatMap MixLayer.unused) 2 114 := by
  obtain ⟨m, ts, p, out, e, -⟩ := C62_constructor mixExample_ok true
  exact ⟨_, e, C79_mlp_mixer e⟩

/-- `Adam` for one parameter, with `amsgrad`. -/
example : ∃ (o : Adam ℝ) (ts : List Tensor), Adam.init [deepExample] 1 1 1 1 true 0 0 = .ok o ∧ o.unregister = .ok ts ∧ ts.map Tensor.id = [1, 2, 3] :=
  ⟨⟨[deepExample], [⟨1, [7, 5], [3, 2]⟩], [⟨2, [7, 5], [3, 2]⟩], [⟨3, [7, 5], [3, 2]⟩], true, 1, 1, 1, 0, 0⟩, [⟨1, [7, 5], [3, 2]⟩, ⟨2, [7, 5], [3, 2]⟩, ⟨3, [7, 5], [3, 2]⟩], rfl, rfl, rfl⟩

open Handle in
/-- Two tensors, the second of two tiles; the first is unregistered twice. -/
example : ∃ w w' : World, run World.init [.newHandle 8 .w, .newHandle 8 .w, .newHandle 16 .w] = .ok w ∧ w.Alive 2 ∧
    run w ([(⟨0, [], []⟩ : Tensor), ⟨1, [2], [1]⟩, ⟨0, [], []⟩].flatMap fun T => tensorUnregister (if T.id = 0 then [0] else [1, 2])) = .ok w' ∧ w'.owners 2 = 0 ∧
    w'.log.drop 3 = [.unregister 0 .coherent, .unregister 1 .coherent, .unregister 2 .coherent] := by
  refine ⟨_, _, rfl, ?_, rfl, by decide, rfl⟩
  exact ⟨.w, [], rfl, by simp, by simp, by decide⟩

end NNTile
