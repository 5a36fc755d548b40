import Verif.Lib.InitRandn
import Verif.Props.C37
import Verif.Props.C61
/-!
# C78 — random initialization of parameters

`init_randn_async` of a layer or of a model gives every parameter finite numbers which depend on its shape only: neither on the tiling, nor on previous contents, nor on the other
parameters. Nothing but the values of the parameters changes. (The seed is the same for all parameters, so parameters of the same shape start with the same numbers.)
-/
namespace NNTile

/-- A layer, in the arithmetic of any number type: every parameter holds the numbers of `initNumber`, nothing else is changed. A tensor may be listed several times. -/
theorem C78_layer {α : Type} [FP α] (cos : α → α) {params : List Moments} {s : Store α} (hc : Consistent params) (hs : ∀ p ∈ params, p.value.Ready s) :
    Runs (initRandnAsync cos params) s (params.map fun p => p.value.id) fun s' =>
      ∀ p ∈ params, p.value.Ready s' ∧ p.value.Holds s' (initNumber cos p.value.shape) := initRandn_runs cos hc hs

/-- The numbers are finite and follow the formula; in the arithmetic of the reals with infinities and NaN, for parameters of at most 2689333721826401274 elements. -/
theorem C78_finite {params : List Moments} {s : Store XReal} (hc : Consistent params) (hs : ∀ p ∈ params, p.value.Ready s)
    (hn : ∀ p ∈ params, p.value.shape.prod ≤ 2689333721826401274) :
    Runs (initRandnAsync XReal.cos params) s (params.map fun p => p.value.id) fun s' =>
      ∀ p ∈ params, p.value.Holds s' fun I => .fin (initValue p.value.shape I) :=
  (initRandn_runs XReal.cos hc hs).imp (fun _ h => h) fun s' _ h p hp I hI => by
    rw [(h p hp).2 I hI, initNumber_xreal (hs p hp).1.1 hI (hn p hp)]

/-- Parameters of the same shape, of the same layer or of different ones, whatever their tilings, get the same numbers. -/
theorem C78_same_numbers {α : Type} [FP α] (cos : α → α) {params₁ params₂ : List Moments} {s₁ s₂ : Store α} (hc₁ : Consistent params₁) (hs₁ : ∀ p ∈ params₁, p.value.Ready s₁)
    (hc₂ : Consistent params₂) (hs₂ : ∀ p ∈ params₂, p.value.Ready s₂) :
    Runs (initRandnAsync cos params₁) s₁ (params₁.map fun p => p.value.id) fun s₁' =>
      Runs (initRandnAsync cos params₂) s₂ (params₂.map fun p => p.value.id) fun s₂' =>
        ∀ p ∈ params₁, ∀ q ∈ params₂, p.value.shape = q.value.shape → ∀ I, InBox p.value.shape I →
          ∃ v, p.value.get s₁' I = some v ∧ q.value.get s₂' I = some v :=
  (initRandn_runs cos hc₁ hs₁).imp (fun _ h => h) fun _ _ h₁ => (initRandn_runs cos hc₂ hs₂).imp (fun _ h => h) fun _ _ h₂ p hp q hq e I hI =>
    ⟨_, (h₁ p hp).2 I hI, by rw [(h₂ q hq).2 I (e ▸ hI), e]⟩

/-- `DeepReLU` and `GPT2MLP`: the parameters of the linear layers are initialized. -/
theorem C78_linears {α : Type} [FP α] (cos : α → α) {m : BaseModel α} {s : Store α} (hc : Consistent (m.layers.flatMap PyLayer.parameters))
    (hs : ∀ p ∈ m.layers.flatMap PyLayer.parameters, p.value.Ready s) :
    Runs (m.initLinears cos) s ((m.layers.flatMap PyLayer.parameters).map fun p => p.value.id) fun s' =>
      (∀ l, .linear l ∈ m.layers → ∀ p ∈ l.w :: l.b.toList, p.value.Holds s' (initNumber cos p.value.shape)) ∧
      OnlyChanged (m.layers.flatMap fun l => match l with | .linear l => (l.w :: l.b.toList).map fun p => p.value.id | _ => []) s s' := by
  rw [initLinears_eq]
  have hsub : ∀ p ∈ m.layers.flatMap (fun l => if l.isLinear then l.parameters else []), p ∈ m.layers.flatMap PyLayer.parameters := by
    intro p hp
    obtain ⟨l, hl, h⟩ := List.mem_flatMap.1 hp
    refine List.mem_flatMap.2 ⟨l, hl, ?_⟩
    cases hlin : l.isLinear
    · rw [hlin] at h; simp at h
    · simpa [hlin] using h
  refine (initRandn_runs cos (fun p hp q hq => hc p (hsub p hp) q (hsub q hq)) fun p hp => hs p (hsub p hp)).imp ?_ ?_
  · intro i hi
    obtain ⟨p, hp, rfl⟩ := List.mem_map.1 hi
    exact List.mem_map.2 ⟨p, hsub p hp, rfl⟩
  · intro s' o h
    refine ⟨fun l hl p hp => (h p (List.mem_flatMap.2 ⟨_, hl, ?_⟩)).2, o.mono ?_⟩
    · exact hp
    · intro i hi
      obtain ⟨p, hp, rfl⟩ := List.mem_map.1 hi
      obtain ⟨l, hl, h⟩ := List.mem_flatMap.1 hp
      refine List.mem_flatMap.2 ⟨l, hl, ?_⟩
      cases l with
      | linear l => exact List.mem_map.2 ⟨p, h, rfl⟩
      | _ => cases h

/-- `DeepLinear`: the parameters of all layers are initialized. -/
theorem C78_all {α : Type} [FP α] (cos : α → α) {m : BaseModel α} {s : Store α} (hc : Consistent (m.layers.flatMap PyLayer.parameters))
    (hs : ∀ p ∈ m.layers.flatMap PyLayer.parameters, p.value.Ready s) :
    Runs (m.initAll cos) s ((m.layers.flatMap PyLayer.parameters).map fun p => p.value.id) fun s' =>
      ∀ l ∈ m.layers, ∀ p ∈ l.parameters, p.value.Holds s' (initNumber cos p.value.shape) := by
  rw [initAll_eq]
  exact (initRandn_runs cos hc hs).imp (fun _ h => h) fun s' _ h l hl p hp => (h p (List.mem_flatMap.2 ⟨l, hl, hp⟩)).2

private theorem linear_kind {b b' : Builder ℝ} {x : Moments} {side : Side} {n : Int} {S T : List Nat} {bias redux : Bool} (h : b.linear x side n S T bias redux = .ok b')
    (hb : ∀ l ∈ b.layers, l.isLinear = true ∨ l.parameters = []) : ∀ l ∈ b'.layers, l.isLinear = true ∨ l.parameters = [] := by
  rw [Builder.linear, M.bind_eq_ok] at h
  obtain ⟨l, -, e⟩ := h
  obtain rfl := Except.ok.inj e
  intro l' hl'
  rcases List.mem_append.1 hl' with h | h
  · exact hb l' h
  · rw [List.mem_singleton.1 h]; exact .inl rfl

private theorem act_kind {b b' : Builder ℝ} {x : Moments} {name : String} (h : b.act x name = .ok b')
    (hb : ∀ l ∈ b.layers, l.isLinear = true ∨ l.parameters = []) : ∀ l ∈ b'.layers, l.isLinear = true ∨ l.parameters = [] := by
  rw [Builder.act, M.bind_eq_ok] at h
  obtain ⟨l, -, e⟩ := h
  obtain rfl := Except.ok.inj e
  intro l' hl'
  rcases List.mem_append.1 hl' with h | h
  · exact hb l' h
  · rw [List.mem_singleton.1 h]; exact .inr rfl

private theorem iter_kind {f : Builder ℝ → M (Builder ℝ)} {P : Builder ℝ → Prop} (hf : ∀ b b', f b = .ok b' → P b → P b') :
    ∀ (n : Nat) {b b' : Builder ℝ}, Builder.iter f n b = .ok b' → P b → P b'
  | 0, b, b', h, hb => by rw [Builder.iter] at h; obtain rfl := Except.ok.inj h; exact hb
  | n + 1, b, b', h, hb => by
    rw [Builder.iter, M.bind_eq_ok] at h
    obtain ⟨b1, e1, e2⟩ := h
    exact iter_kind hf n e2 (hf _ _ e1 hb)

private theorem deepRelu_kind {x : Moments} {side : Side} {ndim nlayers : Int} {width tile nClasses next : Nat} {bias : Bool} {r : BaseModel ℝ × Nat}
    (h : deepRelu x side ndim width tile nlayers nClasses next bias = .ok r) : ∀ l ∈ r.1.layers, l.isLinear = true ∨ l.parameters = [] := by
  simp only [deepRelu, M.bind_eq_ok] at h
  obtain ⟨_, -, _, -, b1, e1, x1, -, b2, e2, b3, e3, x3, -, b4, e4, e5⟩ := h
  obtain rfl := Except.ok.inj e5
  refine linear_kind e4 (iter_kind (P := fun b => ∀ l ∈ b.layers, l.isLinear = true ∨ l.parameters = []) ?_ _ e3 (act_kind e2 (linear_kind e1 (by simp))))
  intro b b' hb hP
  simp only [M.bind_eq_ok] at hb
  obtain ⟨y1, -, c1, f1, y2, -, f2⟩ := hb
  exact act_kind f2 (linear_kind f1 hP)

theorem consistent_of_net {x : Moments} {ps : List Moments} {net : List NetLayer} (h : (netIds (x :: ps) net).Nodup) : Consistent ps := by
  have hn := ids_nodup h
  rw [List.map_cons, List.nodup_cons] at hn
  intro p hp q hq e
  rw [List.inj_on_of_nodup_map hn.2 hp hq e]

/-- A constructed `DeepReLU` (in exact arithmetic): `init_randn_async` initializes all parameters of the model and changes nothing else. -/
theorem C78_deep_relu {asIdx : ℝ → Int} {invalidate : Bool} {x : Moments} (hx : x.Usable) (hid : x.ids.Nodup) {next : Nat} (hlt : ∀ i ∈ x.ids, i < next) (side : Side) {n : Nat} (hn : 0 < n)
    (hn' : n ≤ x.value.ndim) {width tile nClasses nlayers : Nat} (hw : 0 < width) (ht : 0 < tile) (hc : 0 < nClasses) (hl : 2 ≤ nlayers) (bias : Bool) :
    ∃ (acts : List Moments) (layers : List (PyLayer ℝ)) (next' : Nat), deepRelu x side n width tile nlayers nClasses next bias = .ok (BaseModel.init acts layers, next') ∧
      ∀ s, NetReady (x :: layers.flatMap PyLayer.parameters) (netOf asIdx invalidate layers) s →
        Runs ((BaseModel.init acts layers).initLinears Real.cos) s ((layers.flatMap PyLayer.parameters).map fun p => p.value.id) fun s' =>
          ∀ p ∈ layers.flatMap PyLayer.parameters, p.value.Holds s' (initValue p.value.shape) := by
  obtain ⟨acts, layers, next', e1, e2, -⟩ := C37_deep_relu (asIdx := asIdx) (invalidate := invalidate) hx hid hlt side hn hn' hw ht hc hl bias
  refine ⟨acts, layers, next', e1, fun s hs => ?_⟩
  have hk := deepRelu_kind e1
  refine (C78_linears Real.cos (m := BaseModel.init acts layers) (consistent_of_net e2.ids) fun p hp => ?_).imp (fun _ h => h) fun s' _ h p hp => ?_
  · exact (hs.1 p (by simp only [List.mem_append, List.mem_cons]; exact .inl (.inr hp))).1
  · obtain ⟨l, hl, hp⟩ := List.mem_flatMap.1 hp
    rcases hk l hl with h1 | h1
    · cases l with
      | linear l =>
        have := h.1 l hl p hp
        intro I hI
        rw [this I hI, initNumber_real]
      | _ => cases h1
    · rw [h1] at hp; cases hp

/-- The hypotheses are met: two parameters of the same shape with different tilings. -/
example : ∃ s : Store XReal, (∀ p ∈ [(⟨⟨0, [3, 2], [2, 2]⟩, ⟨1, [3, 2], [2, 2]⟩, true⟩ : Moments), ⟨⟨2, [3, 2], [3, 1]⟩, ⟨3, [3, 2], [3, 1]⟩, true⟩], p.value.Ready s) ∧
    Consistent [(⟨⟨0, [3, 2], [2, 2]⟩, ⟨1, [3, 2], [2, 2]⟩, true⟩ : Moments), ⟨⟨2, [3, 2], [3, 1]⟩, ⟨3, [3, 2], [3, 1]⟩, true⟩] := by
  refine ⟨fun h => if h.1 = 0 then Buf.undef ((Tensor.mk 0 [3, 2] [2, 2]).tshapeL h.2).prod else Buf.undef ((Tensor.mk 2 [3, 2] [3, 1]).tshapeL h.2).prod, ?_, ?_⟩
  · intro p hp
    rcases List.mem_cons.1 hp with rfl | hp
    · exact ⟨by decide, fun i _ => rfl⟩
    · rcases List.mem_cons.1 hp with rfl | hp
      · exact ⟨by decide, fun i _ => rfl⟩
      · cases hp
  · intro p hp q hq
    simp only [List.mem_cons, List.not_mem_nil, or_false] at hp hq
    rcases hp with rfl | rfl <;> rcases hq with rfl | rfl <;> simp

/-- A `DeepReLU` with four linear layers. -/
example : ∃ (acts : List Moments) (layers : List (PyLayer ℝ)) (next : Nat), deepRelu deepExample .R 1 10 4 4 3 1 true = .ok (BaseModel.init acts layers, next) ∧
    ∀ s, NetReady (deepExample :: layers.flatMap PyLayer.parameters) (netOf (fun _ => 0) false layers) s →
      Runs ((BaseModel.init acts layers).initLinears Real.cos) s ((layers.flatMap PyLayer.parameters).map fun p => p.value.id) fun s' =>
        ∀ p ∈ layers.flatMap PyLayer.parameters, p.value.Holds s' (initValue p.value.shape) := by
  obtain ⟨h1, h2, h3⟩ := deepExample_ok
  exact C78_deep_relu h1 h2 h3 .R (n := 1) (by decide) (by decide) (width := 10) (tile := 4) (nClasses := 3) (nlayers := 4) (by decide) (by decide) (by decide) (by decide) true

end NNTile
