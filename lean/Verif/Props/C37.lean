import Verif.Lib.Build
/-!
# C37: the models `DeepReLU`, `DeepLinear` and `GPT2MLP`
-/
namespace NNTile
open Finset
variable {asIdx : ℝ → Int} {invalidate : Bool}

private theorem hiddenOut_snoc {side : Side} {m width : Nat} {phi : ℝ → ℝ} (p : (List Nat → ℝ) × (List Nat → ℝ)) (ps : List ((List Nat → ℝ) × (List Nat → ℝ))) :
    ∀ K h, ps ≠ [] → hiddenOut side m width phi K h (ps ++ [p]) =
      fun I => phi (linearOut side .noTrans m [width] (hiddenOut side m width phi K h ps) p.1 p.2 I) := by
  induction ps with
  | nil => intro K h hne; exact absurd rfl hne
  | cons q ps ih =>
    intro K h _
    rw [List.cons_append]
    by_cases hps : ps = []
    · subst hps; rfl
    · exact ih _ _ hps

private theorem linearY_eq (side : Side) (n : Nat) (X S : List Nat) : linearY side .noTrans n X S = outShape side n X S := by cases side <;> rfl
private theorem genK_eq (side : Side) (n : Nat) (X : List Nat) : genK side .noTrans n X = inFeatures side n X := by cases side <;> rfl

private theorem outShape_again (side : Side) {n : Nat} {X S : List Nat} {w : Nat} :
    outShape side 1 (outShape side n X [w]) S = outShape side n X S := by
  cases side <;> simp [outShape]

private theorem inFeatures_again (side : Side) {n : Nat} {X : List Nat} {w : Nat} :
    inFeatures side 1 (outShape side n X [w]) = [w] := by
  cases side <;> simp [outShape, inFeatures]

private theorem headDims_again (side : Side) {n : Nat} {X S : List Nat} {w : Nat} (hn : n ≤ X.length) (hS : S.length = 1) :
    headDims side 1 (outShape side n X [w]) S = headDims side n X [w] := by
  cases side <;> simp [outShape, headDims, hS]

private theorem HiddenShapes.snoc {side : Side} {width : Nat} {p : Moments × Option Moments} (hp : LinearShapes side [width] [width] p) :
    ∀ {ps : List (Moments × Option Moments)} {K : List Nat}, ps ≠ [] → HiddenShapes side width K ps → HiddenShapes side width K (ps ++ [p])
  | [], _, hne, _ => absurd rfl hne
  | [q], _, _, h => ⟨h.1, hp, trivial⟩
  | q :: r :: ps, _, _, h => ⟨h.1, HiddenShapes.snoc hp (by simp) h.2⟩

private theorem linearW_eq {side : Side} {n : Nat} {X S : List Nat} : linearW side .noTrans n X S = (match side with | .L => inFeatures side n X ++ S | .R => S ++ inFeatures side n X) := by
  cases side <;> rfl

/-- State of the constructors inside the loop, after `k` linear layers each followed by `phi`. -/
private structure Inner (asIdx : ℝ → Int) (invalidate : Bool) (x : Moments) (side : Side) (n width tile : Nat) (phi : ℝ → ℝ) (bias : Bool) (per k : Nat) (b : Builder ℝ) : Prop where
  grown : Grown asIdx invalidate [x] [] b
  last : ∃ acts y, b.acts = acts ++ [y] ∧ y.Usable ∧ y.value.shape = outShape side n x.value.shape [width] ∧ y.value.basetile = outShape side n x.value.basetile [tile] ∧
    ∃ ps : List (Moments × Option Moments), ps.length = k ∧ b.layers.flatMap PyLayer.parameters = ps.flatMap paramsOf ∧ ((∀ p ∈ ps, p.2.isSome = bias) ∧ HiddenShapes side width (inFeatures side n x.value.shape) ps) ∧
      ∀ env, netEnv env (netOf asIdx invalidate b.layers) y.value.id =
        hiddenOut side (headDims side n x.value.shape [width]) width phi (inFeatures side n x.value.shape) (env x.value.id) (ps.map (valuesOf env))
  count : b.layers.length = per * k
  plain : ∀ l ∈ b.layers, l.Plain

private theorem iter_spec {f : Builder ℝ → M (Builder ℝ)} {P : Nat → Builder ℝ → Prop} (hf : ∀ k b, P k b → ∃ b', f b = .ok b' ∧ P (k + 1) b') (n : Nat) :
    ∀ k b, P k b → ∃ b', Builder.iter f n b = .ok b' ∧ P (k + n) b' := by
  induction n with
  | zero => intro k b h; exact ⟨b, rfl, h⟩
  | succ n ih =>
    intro k b h
    obtain ⟨b1, e1, h1⟩ := hf k b h
    obtain ⟨b2, e2, h2⟩ := ih (k + 1) b1 h1
    refine ⟨b2, ?_, by rwa [show k + (n + 1) = k + 1 + n by omega]⟩
    rw [Builder.iter, e1, M.bind_ok, e2]

private theorem outShape_pos {side : Side} {n : Nat} {X S : List Nat} (hX : Pos X) (hS : Pos S) : Pos (outShape side n X S) := by
  cases side <;> simp [outShape, hS, hX.take, hX.drop]

private theorem plain_snoc {L : List (PyLayer ℝ)} {l : PyLayer ℝ} (h : ∀ l ∈ L, l.Plain) (hl : l.Plain) : ∀ l' ∈ L ++ [l], l'.Plain := by
  intro l' h'
  rcases List.mem_append.1 h' with h' | h'
  · exact h l' h'
  · rw [List.mem_singleton.1 h']; exact hl

/-- The last linear layer. -/
private theorem Inner.finish {x : Moments} {side : Side} {n width tile : Nat} {phi : ℝ → ℝ} {bias : Bool} {per k : Nat} {b : Builder ℝ}
    (h : Inner asIdx invalidate x side n width tile phi bias per k b) (hn : n ≤ x.value.ndim) (hk : 0 < k) {S B : List Nat} (hS : Pos S) (hB : Pos B) (hSl : S.length = 1) (hBl : B.length = 1)
    (redux : Bool) :
    ∃ (y0 y : Moments) (l : PyLayer ℝ), b.back 1 = .ok y0 ∧ b.linear y0 side 1 S B bias redux = .ok ⟨b.acts ++ [y], b.layers ++ [l], b.next + 6⟩ ∧
      Grown asIdx invalidate [x] [] ⟨b.acts ++ [y], b.layers ++ [l], b.next + 6⟩ ∧ y.value.shape = outShape side n x.value.shape S ∧
      y.value.basetile = outShape side n x.value.basetile B ∧ y.Usable ∧ (∀ l' ∈ b.layers ++ [l], l'.Plain) ∧
      ∃ (ps : List (Moments × Option Moments)) (p : Moments × Option Moments), ps.length = k ∧ (b.layers ++ [l]).flatMap PyLayer.parameters = (ps ++ [p]).flatMap paramsOf ∧
        ((∀ q ∈ ps ++ [p], q.2.isSome = bias) ∧ HiddenShapes side width (inFeatures side n x.value.shape) ps ∧ LinearShapes side [width] S p) ∧
      ∀ env, netEnv env (netOf asIdx invalidate (b.layers ++ [l])) y.value.id =
        deepOut side (headDims side n x.value.shape [width]) width phi (inFeatures side n x.value.shape) (env x.value.id) (ps.map (valuesOf env)) (valuesOf env p) := by
  obtain ⟨acts, y, e1, hu, hs, ht, ps, hps, hpar, ⟨hbias, hsh⟩, hval⟩ := h.last
  have hnd : 1 ≤ y.value.ndim := by
    rw [Tensor.ndim, hs]
    cases side <;> simp [outShape]
  obtain ⟨w, z, bm, l, f1, f2, f3, fp, f4, f5, f6, f7, f8, f9, fw, fb, f10⟩ := h.grown.linear (x := y) (by simp [e1]) hu side (n := 1) (by omega) hnd hS hB (by omega) bias (fun _ => hSl) redux
  have hback : b.back 1 = .ok y := by
    obtain ⟨A, L, N⟩ := b
    simp only at e1
    subst e1
    exact Builder.back_one
  refine ⟨y, z, l, hback, f1, f2, ?_, ?_, f6, plain_snoc h.plain fp, ps, (w, bm), hps, ?_, ⟨?_, hsh, ?_, fb⟩, ?_⟩
  · rw [f8, linearY_eq, hs, outShape_again]
  · rw [f9, linearY_eq, ht, outShape_again]
  · rw [List.flatMap_append, List.flatMap_append, hpar]
    simp [f4, paramsOf]
  · intro q hq
    rcases List.mem_append.1 hq with hq | hq
    · exact hbias q hq
    · obtain rfl := List.mem_singleton.1 hq
      exact f5
  · dsimp only
    rw [fw, linearW_eq, hs, inFeatures_again]
    cases side <;> rfl
  · intro env
    rw [f10, hval, hs, genK_eq, inFeatures_again, headDims_again side hn hSl]
    rfl

/-- The first linear layer and `phi` (done by the step `g`). -/
private theorem first_layer {x : Moments} (hx : x.Usable) (hid : x.ids.Nodup) {next : Nat} (hlt : ∀ i ∈ x.ids, i < next) (side : Side) {n : Nat} (hn : 0 < n)
    (hn' : n ≤ x.value.ndim) {width tile : Nat} (hw : 0 < width) (ht : 0 < tile) (bias redux : Bool) :
    ∃ b', Builder.linear (α := ℝ) ⟨[x], [], next⟩ x side n [width] [tile] bias redux = .ok b' ∧ Inner asIdx invalidate x side n width tile id bias 1 1 b' := by
  have h0 : Grown asIdx invalidate [x] [] ⟨[x], [], next⟩ := Grown.init (by simpa using hid) (by simpa using hlt)
  obtain ⟨w, z, bm, l, f1, f2, f3, fp, f4, f5, f6, f7, f8, f9, fw, fb, f10⟩ := h0.linear (x := x) (by simp) hx side hn hn' (S := [width]) (B := [tile]) (by simpa using hw)
    (by simpa using ht) rfl bias (fun _ => rfl) redux
  refine ⟨_, f1, f2, ⟨[x], z, rfl, f6, by rw [f8, linearY_eq], by rw [f9, linearY_eq], [(w, bm)], rfl, ?_, ⟨?_, ⟨?_, fb⟩, trivial⟩, ?_⟩, rfl, plain_snoc (by simp) fp⟩
  · simp [f4, paramsOf]
  · simpa using f5
  · dsimp only
    rw [fw, linearW_eq]
    cases side <;> rfl
  · intro env
    rw [f10, genK_eq]
    rfl

/-- An activation layer. -/
private theorem Inner.relu {x : Moments} {side : Side} {n width tile : Nat} {bias : Bool} {b0 : Builder ℝ} {k : Nat} {name : String} {kind : ActKind}
    (hk : (name, kind) ∈ [("relu", ActKind.relu), ("gelu", .gelu), ("gelutanh", .gelutanh)])
    (hg : Grown asIdx invalidate [x] [] b0) {acts : List Moments} {y : Moments} (hy : b0.acts = acts ++ [y]) (hu : y.Usable) (hs : y.value.shape = outShape side n x.value.shape [width])
    (ht : y.value.basetile = outShape side n x.value.basetile [tile]) {ps : List (Moments × Option Moments)} (hps : ps.length = k)
    (hpar : b0.layers.flatMap PyLayer.parameters = ps.flatMap paramsOf) (hb : (∀ p ∈ ps, p.2.isSome = bias) ∧ HiddenShapes side width (inFeatures side n x.value.shape) ps)
    (hval : ∀ env, (fun I => kind.spec (netEnv env (netOf asIdx invalidate b0.layers) y.value.id I)) =
      hiddenOut side (headDims side n x.value.shape [width]) width kind.spec (inFeatures side n x.value.shape) (env x.value.id) (ps.map (valuesOf env)))
    (hc : b0.layers.length + 1 = 2 * k) (hpl : ∀ l ∈ b0.layers, l.Plain) :
    ∃ b', b0.back 1 = .ok y ∧ b0.act y name = .ok b' ∧ Inner asIdx invalidate x side n width tile kind.spec bias 2 k b' := by
  have hback : b0.back 1 = .ok y := by
    obtain ⟨A, L, N⟩ := b0
    simp only at hy
    subst hy
    exact Builder.back_one
  obtain ⟨z, l, g1, g2, g3, gp, g4, g5, g6, g7, g8, g9⟩ := hg.actLayer (x := y) (by simp [hy]) hu hk
  refine ⟨_, hback, g1, g2, ⟨b0.acts, z, rfl, g5, by rw [g7, hs], by rw [g8, ht], ps, hps, ?_, hb, ?_⟩, ?_, plain_snoc hpl gp⟩
  · rw [List.flatMap_append, hpar]
    simp [g4]
  · intro env
    rw [g9, hval]
  · simp [hc]

private theorem Inner.step {x : Moments} {side : Side} {n width tile : Nat} {bias : Bool} (hn : n ≤ x.value.ndim) (hw : 0 < width) (ht : 0 < tile) (k : Nat) (b : Builder ℝ)
    (h : 0 < k ∧ Inner asIdx invalidate x side n width tile reluSpec bias 2 k b) :
    ∃ b', (do
      let b ← b.linear (← b.back 1) side 1 [width] [tile] bias false
      b.act (← b.back 1) "relu") = .ok b' ∧ 0 < k + 1 ∧ Inner asIdx invalidate x side n width tile reluSpec bias 2 (k + 1) b' := by
  obtain ⟨hk, h⟩ := h
  obtain ⟨y0, y, l, e0, e1, hg, hs, htl, hu, hpl, ps, p, hps, hpar, hb, hval⟩ := h.finish hn hk (S := [width]) (B := [tile]) (by simpa using hw) (by simpa using ht) rfl rfl false
  obtain ⟨b', e2, e3, hI⟩ := Inner.relu (side := side) (n := n) (width := width) (tile := tile) (bias := bias) (k := k + 1) (name := "relu") (kind := .relu) (by simp) hg rfl hu hs htl
    (ps := ps ++ [p]) (by simp [hps]) hpar ⟨hb.1, HiddenShapes.snoc hb.2.2 (by rintro rfl; simp at hps; omega) hb.2.1⟩ (by
      intro env
      rw [hval, List.map_append, List.map_cons, List.map_nil, hiddenOut_snoc _ _ _ _ (by
        intro hc
        have := congrArg List.length hc
        simp [hps] at this
        omega)]
      rfl) (by simp only [List.length_append, List.length_singleton, h.count]; omega) hpl
  exact ⟨b', by rw [e0, M.bind_ok, e1, M.bind_ok, e2, M.bind_ok, e3], by omega, hI⟩

/-- **`DeepReLU`.** For each input `x` with at least `ndim > 0` dimensions, any number of layers (at least two) and any sizes and tiles, the constructor succeeds, with or without
bias. The layers form a network (so that by C36 forward and backward propagation and clearing of gradients are correct) whose parameters are the weights
and biases in the order of the layers and whose last activation is
`linear(relu(linear(... relu(linear(x)))))`. -/
theorem C37_deep_relu {x : Moments} (hx : x.Usable) (hid : x.ids.Nodup) {next : Nat} (hlt : ∀ i ∈ x.ids, i < next) (side : Side) {n : Nat} (hn : 0 < n)
    (hn' : n ≤ x.value.ndim) {width tile nClasses nlayers : Nat} (hw : 0 < width) (ht : 0 < tile) (hc : 0 < nClasses) (hl : 2 ≤ nlayers) (bias : Bool) :
    ∃ (acts : List Moments) (layers : List (PyLayer ℝ)) (next' : Nat), deepRelu x side n width tile nlayers nClasses next bias = .ok (BaseModel.init acts layers, next') ∧
      IsNetwork asIdx invalidate (x :: layers.flatMap PyLayer.parameters) layers ∧ acts = x :: layers.map PyLayer.output ∧ layers.length = 2 * nlayers - 1 ∧
      (∀ i ∈ netIds (x :: layers.flatMap PyLayer.parameters) (netOf asIdx invalidate layers), i < next') ∧
      (∀ m ∈ layers.flatMap PyLayer.parameters ++ layers.map PyLayer.output, m.Usable ∧ m.gradRequired = true) ∧ (∀ l ∈ layers, l.Plain) ∧
      ∃ (out : Moments) (ps : List (Moments × Option Moments)) (p : Moments × Option Moments), acts.getLast? = some out ∧
        out.value.shape = outShape side n x.value.shape [nClasses] ∧ ps.length = nlayers - 1 ∧
        layers.flatMap PyLayer.parameters = (ps ++ [p]).flatMap paramsOf ∧ (∀ q ∈ ps ++ [p], q.2.isSome = bias) ∧
        HiddenShapes side width (inFeatures side n x.value.shape) ps ∧ LinearShapes side [width] [nClasses] p ∧
        ∀ env, netEnv env (netOf asIdx invalidate layers) out.value.id =
          deepOut side (headDims side n x.value.shape [width]) width reluSpec (inFeatures side n x.value.shape) (env x.value.id) (ps.map (valuesOf env)) (valuesOf env p) := by
  obtain ⟨b1, e1, h1⟩ := first_layer (asIdx := asIdx) (invalidate := invalidate) hx hid hlt side hn hn' hw ht bias false
  obtain ⟨acts1, y1, a1, u1, s1, t1, ps1, l1, p1, bi1, v1⟩ := h1.last
  obtain ⟨b2, e2, e3, h2⟩ := Inner.relu (side := side) (n := n) (width := width) (tile := tile) (bias := bias) (k := 1) (name := "relu") (kind := .relu) (by simp) h1.grown a1 u1 s1 t1 l1
    p1 bi1 (by
      intro env
      obtain ⟨p, rfl⟩ := List.length_eq_one_iff.1 l1
      rw [v1]
      rfl) (by rw [h1.count]) h1.plain
  obtain ⟨b3, e4, hk, h3⟩ := iter_spec (P := fun k b => 0 < k ∧ Inner asIdx invalidate x side n width tile reluSpec bias 2 k b)
    (fun k b => Inner.step hn' hw ht k b) (nlayers - 2) 1 b2 ⟨by omega, h2⟩
  obtain ⟨y0, y, l, e5, e6, hg, hs, htl, hu, hpl, ps, p, hps, hpar, hb, hval⟩ := h3.finish hn' hk (S := [nClasses]) (B := [nClasses]) (by simpa using hc) (by simpa using hc) rfl rfl false
  refine ⟨b3.acts ++ [y], b3.layers ++ [l], b3.next + 6, ?_, ?_, ?_, ?_, hg.below, ?_, hpl, y, ps, p, by simp, hs, by omega, hpar, hb.1, hb.2.1, hb.2.2, ?_⟩
  · rw [deepRelu, throwIf_neg (by omega), M.bind_ok, throwIf_neg (by omega), M.bind_ok]
    simp only
    rw [e1, M.bind_ok, e2, M.bind_ok, e3, M.bind_ok, show ((nlayers : Int) - 1 - 1).toNat = nlayers - 2 by omega, e4, M.bind_ok, e5, M.bind_ok, e6, M.bind_ok]
  · exact hg.net
  · exact hg.acts
  · simp only [List.length_append, List.length_singleton, h3.count]
    omega
  · intro m hm
    obtain ⟨q1, q2, q3, q4⟩ := hg.wf m hm
    exact ⟨⟨q1, q2, q3⟩, q4⟩
  · exact hval

/-- `DeepReLU` rejects fewer than two layers, a non-positive `ndim` and sizes or tiles which are zero. -/
theorem C37_deep_relu_rejects {x : Moments} (hx : x.value.WF) (side : Side) {ndim nlayers : Int} {width tile nClasses next : Nat} {bias : Bool}
    (h : nlayers < 2 ∨ ndim ≤ 0 ∨ width = 0 ∨ tile = 0) : Throws (deepRelu (α := ℝ) x side ndim width tile nlayers nClasses next bias) := by
  unfold deepRelu
  refine throws_step fun h1 => throws_step fun h2 => ?_
  have : Throws (Builder.linear (α := ℝ) ⟨[x], [], next⟩ x side ndim [width] [tile] bias false) := by
    unfold Builder.linear
    refine (C33_linear_generate_rejects hx side .noTrans ndim [width] [tile] bias next false ?_).bind
    right; right
    simp only [List.forall_mem_cons, Pos, List.not_mem_nil, IsEmpty.forall_iff, implies_true, and_true]
    omega
  exact this.bind

/-! ### `DeepLinear` -/

private theorem Inner.stepLinear {x : Moments} {side : Side} {n width tile : Nat} {bias : Bool} (hn : n ≤ x.value.ndim) (hw : 0 < width) (ht : 0 < tile) (k : Nat) (b : Builder ℝ)
    (h : 0 < k ∧ Inner asIdx invalidate x side n width tile id bias 1 k b) :
    ∃ b', (do b.linear (← b.back 1) side 1 [width] [tile] bias false) = .ok b' ∧ 0 < k + 1 ∧ Inner asIdx invalidate x side n width tile id bias 1 (k + 1) b' := by
  obtain ⟨hk, h⟩ := h
  obtain ⟨y0, y, l, e0, e1, hg, hs, htl, hu, hpl, ps, p, hps, hpar, hb, hval⟩ := h.finish hn hk (S := [width]) (B := [tile]) (by simpa using hw) (by simpa using ht) rfl rfl false
  refine ⟨_, by rw [e0, M.bind_ok, e1], by omega, hg, ⟨b.acts, y, rfl, hu, hs, htl, ps ++ [p], by simp [hps], hpar, ⟨hb.1, HiddenShapes.snoc hb.2.2 (by rintro rfl; simp at hps; omega) hb.2.1⟩, fun env => ?_⟩, ?_, hpl⟩
  · rw [hval, List.map_append, List.map_cons, List.map_nil, hiddenOut_snoc _ _ _ _ (by
        intro hc
        have := congrArg List.length hc
        simp [hps] at this
        omega)]
    rfl
  · simp only [List.length_append, List.length_singleton, h.count]; omega

/-- The loop of the constructor. -/
private theorem deepLinear_inner {x : Moments} (hx : x.Usable) (hid : x.ids.Nodup) {next : Nat} (hlt : ∀ i ∈ x.ids, i < next) (side : Side) {n : Nat} (hn : 0 < n)
    (hn' : n ≤ x.value.ndim) {width tile nlayers : Nat} (hw : 0 < width) (ht : 0 < tile) (hl : 2 ≤ nlayers) :
    ∃ b, (do
      let b ← Builder.linear (α := ℝ) ⟨[x], [], next⟩ x side n [width] [tile] true false
      Builder.iter (fun b => do b.linear (← b.back 1) side 1 [width] [tile] true false) ((nlayers : Int) - 1 - 1).toNat b) = .ok b ∧
      Inner asIdx invalidate x side n width tile id true 1 (nlayers - 1) b := by
  obtain ⟨b1, e1, h1⟩ := first_layer (asIdx := asIdx) (invalidate := invalidate) hx hid hlt side hn hn' hw ht true false
  obtain ⟨b3, e4, hk, h3⟩ := iter_spec (P := fun k b => 0 < k ∧ Inner asIdx invalidate x side n width tile id true 1 k b)
    (fun k b => Inner.stepLinear hn' hw ht k b) (nlayers - 2) 1 b1 ⟨by omega, h1⟩
  refine ⟨b3, ?_, ?_⟩
  · rw [e1, M.bind_ok, show ((nlayers : Int) - 1 - 1).toNat = nlayers - 2 by omega, e4]
  · rw [show nlayers - 1 = 1 + (nlayers - 2) by omega]
    exact h3

/-- **`DeepLinear`** with `ndim = 1`: the output has the shape of the input and is a composition of linear layers (with biases). -/
theorem C37_deep_linear_partial {x : Moments} (hx : x.Usable) (hid : x.ids.Nodup) {next : Nat} (hlt : ∀ i ∈ x.ids, i < next) (side : Side) (hn : 1 ≤ x.value.ndim)
    {width tile nlayers : Nat} (hw : 0 < width) (ht : 0 < tile) (hl : 2 ≤ nlayers) :
    ∃ (acts : List Moments) (layers : List (PyLayer ℝ)) (next' : Nat), deepLinear x side 1 width tile nlayers next = .ok (BaseModel.init acts layers, next') ∧
      IsNetwork asIdx invalidate (x :: layers.flatMap PyLayer.parameters) layers ∧ acts = x :: layers.map PyLayer.output ∧ layers.length = nlayers ∧
      (∀ m ∈ layers.flatMap PyLayer.parameters ++ layers.map PyLayer.output, m.Usable ∧ m.gradRequired = true) ∧ (∀ l ∈ layers, l.Plain) ∧
      ∃ (out : Moments) (ps : List (Moments × Option Moments)) (p : Moments × Option Moments), acts.getLast? = some out ∧
        out.value.shape = x.value.shape ∧ out.value.basetile = x.value.basetile ∧ ps.length = nlayers - 1 ∧
        layers.flatMap PyLayer.parameters = (ps ++ [p]).flatMap paramsOf ∧ (∀ q ∈ ps ++ [p], q.2.isSome = true) ∧
        HiddenShapes side width (inFeatures side 1 x.value.shape) ps ∧ LinearShapes side [width] (inFeatures side 1 x.value.shape) p ∧
        ∀ env, netEnv env (netOf asIdx invalidate layers) out.value.id =
          deepOut side (headDims side 1 x.value.shape [width]) width id (inFeatures side 1 x.value.shape) (env x.value.id) (ps.map (valuesOf env)) (valuesOf env p) := by
  obtain ⟨b, e, h⟩ := deepLinear_inner (asIdx := asIdx) (invalidate := invalidate) hx hid hlt side one_pos hn hw ht hl
  have hlen : ∀ {X : List Nat}, 1 ≤ X.length → (inFeatures side 1 X).length = 1 ∧ outShape side 1 X (inFeatures side 1 X) = X := by
    intro X hX
    cases side
    · simp [inFeatures, outShape]; omega
    · cases X with
      | nil => simp at hX
      | cons a X => simp [inFeatures, outShape]
  have hl2 : 1 ≤ x.value.basetile.length := by rw [hx.1.2.2]; exact hn
  have hp : ∀ {X : List Nat}, Pos X → Pos (inFeatures side 1 X) := by
    intro X hX
    cases side
    · exact hX.drop _
    · exact hX.take _
  obtain ⟨y0, y, l, e5, e6, hg, hs, htl, hu, hpl, ps, p, hps, hpar, hb, hval⟩ := h.finish hn (by omega) (hp hx.1.1) (hp hx.1.2.1) (hlen hn).1 (hlen hl2).1 false
  refine ⟨b.acts ++ [y], b.layers ++ [l], b.next + 6, ?_, hg.net, hg.acts, ?_, ?_, hpl, y, ps, p, by simp, by rw [hs, (hlen hn).2], by rw [htl, (hlen hl2).2], by omega, hpar, hb.1, hb.2.1, hb.2.2, hval⟩
  · rw [deepLinear, throwIf_neg (by omega), M.bind_ok, throwIf_neg (by omega), M.bind_ok]
    have hf : ∀ X : List Nat, deepLinearOut side 1 X = inFeatures side 1 X := by intro X; cases side <;> rfl
    simp only [hf]
    rw [← bind_assoc]
    refine (congrArg (· >>= _) e).trans ?_
    rw [M.bind_ok, e5, M.bind_ok]
    refine (congrArg (· >>= _) e6).trans ?_
    rw [M.bind_ok]
  · simp only [List.length_append, List.length_singleton, h.count]
    omega
  · intro m hm
    obtain ⟨q1, q2, q3, q4⟩ := hg.wf m hm
    exact ⟨⟨q1, q2, q3⟩, q4⟩

/-- **`DeepLinear` with more than one features dimension cannot be constructed**, although the parameter `ndim` is provided for it: the last layer is requested with the
default bias, for which `Linear.generate_simple` supports one dimension only. -/
theorem C37_deep_linear_refuted {x : Moments} (hx : x.Usable) (hid : x.ids.Nodup) {next : Nat} (hlt : ∀ i ∈ x.ids, i < next) (side : Side) {n : Nat} (hn : 2 ≤ n)
    (hn' : n ≤ x.value.ndim) {width tile nlayers : Nat} (hw : 0 < width) (ht : 0 < tile) (hl : 2 ≤ nlayers) :
    Throws (deepLinear (α := ℝ) x side n width tile nlayers next) := by
  obtain ⟨b, e, h⟩ := deepLinear_inner (asIdx := fun _ => 0) (invalidate := false) hx hid hlt side (by omega) hn' hw ht hl
  obtain ⟨acts, y, hy, hu, -⟩ := h.last
  have hback : b.back 1 = .ok y := by
    obtain ⟨A, L, N⟩ := b
    simp only at hy
    subst hy
    exact Builder.back_one
  rw [deepLinear, throwIf_neg (by omega), M.bind_ok, throwIf_neg (by omega), M.bind_ok]
  simp only
  rw [← bind_assoc, e, M.bind_ok, hback, M.bind_ok]
  refine Throws.bind ?_
  unfold Builder.linear
  refine (C33_linear_generate_rejects hu.1 side .noTrans 1 _ _ true b.next false ?_).bind
  right; left
  refine ⟨rfl, ?_⟩
  simp only [Tensor.ndim] at hn'
  cases side
  · simp [deepLinearOut, lastOf]; omega
  · simp [deepLinearOut]; omega

/-! ### `GPT2MLP` -/

/-- **`GPT2MLP`** computes `W₂ φ(W₁ x + b₁) + b₂` where `φ` is the activation function of the given name, along the first dimension. -/
theorem C37_gpt2_mlp {x : Moments} (hx : x.Usable) (hid : x.ids.Nodup) {next : Nat} (hlt : ∀ i ∈ x.ids, i < next) (hn : 1 ≤ x.value.ndim)
    {embed embedTile inner innerTile : Nat} (he : 0 < embed) (het : 0 < embedTile) (hi : 0 < inner) (hit : 0 < innerTile) {name : String} {kind : ActKind}
    (hk : (name, kind) ∈ [("relu", ActKind.relu), ("gelu", .gelu), ("gelutanh", .gelutanh)]) (redux : Bool) :
    ∃ (h y w1 b1 w2 b2 : Moments) (a : Moments) (layers : List (PyLayer ℝ)),
      gpt2Mlp x embed embedTile inner innerTile name redux next = .ok (BaseModel.init [x, h, a, y] layers, next + 14) ∧
      layers.flatMap PyLayer.parameters = [w1, b1, w2, b2] ∧ layers.map PyLayer.output = [h, a, y] ∧ (∀ l ∈ layers, l.Plain) ∧ IsNetwork asIdx invalidate [x, w1, b1, w2, b2] layers ∧
      (∀ i ∈ netIds [x, w1, b1, w2, b2] (netOf asIdx invalidate layers), i < next + 14) ∧
      (∀ m ∈ [w1, b1, w2, b2, h, a, y], m.Usable ∧ m.gradRequired = true) ∧ y.value.shape = embed :: x.value.shape.drop 1 ∧
      LinearShapes .R (x.value.shape.take 1) [inner] (w1, some b1) ∧ LinearShapes .R [inner] [embed] (w2, some b2) ∧
      ∀ env, netEnv env (netOf asIdx invalidate layers) y.value.id =
        linearOut .R .noTrans 1 [inner] (fun I => kind.spec (linearOut .R .noTrans 1 (x.value.shape.take 1) (env x.value.id) (env w1.value.id) (env b1.value.id) I))
          (env w2.value.id) (env b2.value.id) := by
  have h0 : Grown asIdx invalidate [x] [] ⟨[x], [], next⟩ := Grown.init (by simpa using hid) (by simpa using hlt)
  obtain ⟨w1, h, b1, l1, f1, f2, f3, fp, f4, f5, f6, f7, f8, f9, fw, fb, f10⟩ := h0.linear (x := x) (by simp) hx .R one_pos hn (S := [inner]) (B := [innerTile]) (by simpa using hi)
    (by simpa using hit) rfl true (fun _ => rfl) redux
  obtain ⟨b1, rfl⟩ := Option.isSome_iff_exists.1 f5
  obtain ⟨a, l2, g1, g2, g3, gp, g4, g5, g6, g7, g8, g9⟩ := f2.actLayer (x := h) (by simp) f6 hk
  obtain ⟨w2, y, b2, l3, k1, k2, k3, kp, k4, k5, k6, k7, k8, k9, kw, kb, k10⟩ := g2.linear (x := a) (by simp) g5 .R one_pos (by rw [Tensor.ndim, g7, f8]; simp [linearY])
    (S := [embed]) (B := [embedTile]) (by simpa using he) (by simpa using het) rfl true (fun _ => rfl) redux
  obtain ⟨b2, rfl⟩ := Option.isSome_iff_exists.1 k5
  refine ⟨h, y, w1, b1, w2, b2, a, [l1, l2, l3], ?_, ?_, ?_, by simp [fp, gp, kp], ?_, ?_, ?_, ?_, ⟨fw, fb⟩, ⟨?_, kb⟩, ?_⟩
  · rw [gpt2Mlp, gpt2MlpBuild]
    rw [show ((1 : Int)) = ((1 : Nat) : Int) from rfl, f1, M.bind_ok, Builder.back_one, M.bind_ok, g1, M.bind_ok, Builder.back_one, M.bind_ok, k1, M.bind_ok]
    simp
  · simp [f4, g4, k4]
  · simp [f3, g3, k3]
  · have := k2.net
    simpa [f4, g4, k4] using this
  · have := k2.below
    simpa [f4, g4, k4] using this
  · intro m hm
    obtain ⟨q1, q2, q3, q4⟩ := k2.wf m (by simp [f4, g4, k4, f3, g3, k3] at hm ⊢; tauto)
    exact ⟨⟨q1, q2, q3⟩, q4⟩
  · rw [k8, g7, f8]
    simp [linearY]
  · change w2.value.shape = [embed] ++ [inner]
    rw [kw, g7, f8]
    rfl
  · intro env
    have e1 := k10 env
    simp only [List.nil_append, List.cons_append] at e1 g9 f10
    rw [e1, g9, f10, g7, f8]
    rfl

/-! ### The hypotheses can be met -/

/-- All tensors of a network can be registered at the same time, with any contents: the hypotheses of C36 can be met for each network with well-formed tensors. -/
theorem C37_registered {given : List Moments} {layers : List (PyLayer ℝ)} (h : IsNetwork asIdx invalidate given layers)
    (hwf : ∀ m ∈ given ++ layers.map PyLayer.output, m.Usable) (ht : ∀ l ∈ netOf asIdx invalidate layers, ∀ T ∈ l.temps, T.WF) (env G : Env) :
    ∃ s : Store ℝ, NetReady given (netOf asIdx invalidate layers) s ∧ (∀ m ∈ given, m.value.Holds s (env m.value.id)) ∧
      GradsHold (given ++ (netOf asIdx invalidate layers).map NetLayer.out) s G := by
  have e3 : (netOf asIdx invalidate layers).map NetLayer.out = layers.map PyLayer.output := by
    rw [netOf, List.map_map]
    exact List.map_congr_left fun l _ => l.toNet_out
  set net := netOf asIdx invalidate layers with hnet
  let f : Moments → List (Tensor × (List Nat → ℝ)) := fun m => (m.value, env m.value.id) :: if m.gradRequired then [(m.grad, G m.value.id)] else []
  let L : List (Tensor × (List Nat → ℝ)) := given.flatMap f ++ net.flatMap fun l => f l.out ++ l.temps.map fun T => (T, fun _ => (0 : ℝ))
  have hf : ∀ m, (f m).map (fun p => p.1.id) = m.ids := by
    intro m
    simp only [f, Moments.ids, Moments.gradIds]
    cases m.gradRequired <;> rfl
  have hids : L.map (fun p => p.1.id) = netIds given net := by
    simp only [L, netIds, List.map_append, List.map_flatMap, hf, List.map_map]
    rfl
  have hfw : ∀ m ∈ given ++ net.map NetLayer.out, ∀ p ∈ f m, p.1.WF := by
    intro m hm p hp
    rw [e3] at hm
    obtain ⟨h1, h2, h3⟩ := hwf m hm
    simp only [f, List.mem_cons] at hp
    rcases hp with rfl | hp
    · exact h1
    · by_cases hr : m.gradRequired = true
      · rw [if_pos hr, List.mem_singleton] at hp
        subst hp
        show m.grad.WF
        rw [Tensor.WF, h2, h3]
        exact h1
      · rw [if_neg hr] at hp
        cases hp
  have hs := storeOf_spec L (by
    intro p hp
    rcases List.mem_append.1 hp with hp | hp
    · obtain ⟨m, hm, hp⟩ := List.mem_flatMap.1 hp
      exact hfw m (List.mem_append_left _ hm) p hp
    · obtain ⟨l, hl, hp⟩ := List.mem_flatMap.1 hp
      rcases List.mem_append.1 hp with hp | hp
      · exact hfw l.out (List.mem_append_right _ (List.mem_map_of_mem hl)) p hp
      · obtain ⟨T, hT, rfl⟩ := List.mem_map.1 hp
        exact ht l hl T hT) (by rw [hids]; exact h.ids)
  have hm : ∀ m ∈ given ++ net.map NetLayer.out, ∀ p ∈ f m, p ∈ L := by
    intro m hm p hp
    rcases List.mem_append.1 hm with hm | hm
    · exact List.mem_append_left _ (List.mem_flatMap.2 ⟨m, hm, hp⟩)
    · obtain ⟨l, hl, rfl⟩ := List.mem_map.1 hm
      exact List.mem_append_right _ (List.mem_flatMap.2 ⟨l, hl, List.mem_append_left _ hp⟩)
  refine ⟨storeOf L, ⟨fun m hm' => ⟨?_, fun hr => ?_⟩, fun l hl T hT => ?_⟩, fun m hm' => ?_, fun m hm' hr => ?_⟩
  · exact (hs (m.value, env m.value.id) (hm m hm' _ (by simp [f]))).1
  · exact (hs (m.grad, G m.value.id) (hm m hm' _ (by simp [f, hr]))).1
  · exact (hs (T, fun _ => 0) (List.mem_append_right _ (List.mem_flatMap.2 ⟨l, hl, List.mem_append_right _ (List.mem_map_of_mem hT)⟩))).1
  · exact (hs (m.value, env m.value.id) (hm m (List.mem_append_left _ hm') _ (by simp [f]))).2
  · exact hs (m.grad, G m.value.id) (hm m hm' _ (by simp [f, hr]))

/-- An input of shape `7×5` in tiles `3×2`, its gradient not required. -/
def deepExample : Moments := ⟨⟨0, [7, 5], [3, 2]⟩, ⟨0, [7, 5], [3, 2]⟩, false⟩

theorem deepExample_ok : deepExample.Usable ∧ deepExample.ids.Nodup ∧ ∀ i ∈ deepExample.ids, i < 1 := by
  refine ⟨⟨?_, rfl, rfl⟩, ?_, ?_⟩ <;> simp [deepExample, Tensor.WF, Moments.ids, Moments.gradIds]

/-- A `DeepReLU` with four linear layers: constructed, registered and propagated forward, from any contents. -/
example (env : Env) : ∃ (acts : List Moments) (layers : List (PyLayer ℝ)) (next : Nat) (s : Store ℝ),
    deepRelu deepExample .R 1 10 4 4 3 1 true = .ok (BaseModel.init acts layers, next) ∧ layers.length = 7 ∧
    Runs ((BaseModel.init acts layers).forwardAsync (fun _ => 0) false) s (fwdIds (netOf (fun _ => 0) false layers))
      (Propagated (deepExample :: layers.flatMap PyLayer.parameters) (netOf (fun _ => 0) false layers) env) := by
  obtain ⟨h1, h2, h3⟩ := deepExample_ok
  obtain ⟨acts, layers, next, e1, e2, e3, e4, -, e5, e6, -⟩ := C37_deep_relu (asIdx := fun _ => 0) (invalidate := false) h1 h2 h3 .R (n := 1) (by decide) (by decide) (width := 10) (tile := 4)
    (nClasses := 3) (nlayers := 4) (by decide) (by decide) (by decide) (by decide) true
  have hkind : ∀ l ∈ netOf (fun _ => (0 : Int)) false layers, l.temps = [] ∧ ∀ env, l.Valid env := by
    intro l hl
    obtain ⟨l0, hl0, rfl⟩ := List.mem_map.1 hl
    exact e6 l0 hl0 _ _
  obtain ⟨s, q1, q2, -⟩ := C37_registered e2 (by
    intro m hm
    rcases List.mem_append.1 hm with hm | hm
    · rcases List.mem_cons.1 hm with rfl | hm
      · exact h1
      · exact (e5 m (List.mem_append_left _ hm)).1
    · exact (e5 m (List.mem_append_right _ hm)).1) (by
    intro l hl T hT
    rw [(hkind l hl).1] at hT
    cases hT) env (fun _ _ => 0)
  refine ⟨acts, layers, next, s, e1, e4, C36_forward acts e2 q1 q2 ?_⟩
  generalize netOf (fun _ => (0 : Int)) false layers = net at hkind
  clear q1 q2
  induction net generalizing env with
  | nil => trivial
  | cons l net ih => exact ⟨(hkind l (by simp)).2 env, ih _ fun l' hl' => hkind l' (by simp [hl'])⟩

/-- `DeepLinear` and `GPT2MLP` on the same input. -/
example : (∃ r : BaseModel ℝ × Nat, deepLinear deepExample .L 1 10 4 5 1 = .ok r) ∧ Throws (deepLinear (α := ℝ) deepExample .L 2 10 4 5 1) ∧
    ∃ r : BaseModel ℝ × Nat, gpt2Mlp deepExample 7 3 28 8 "gelutanh" true 1 = .ok r := by
  obtain ⟨h1, h2, h3⟩ := deepExample_ok
  refine ⟨?_, C37_deep_linear_refuted h1 h2 h3 .L (n := 2) (by decide) (by decide) (nlayers := 5) (by decide) (by decide) (by decide), ?_⟩
  · obtain ⟨acts, layers, next, e, -⟩ := C37_deep_linear_partial (asIdx := fun _ => 0) (invalidate := false) h1 h2 h3 .L (by decide) (width := 10) (tile := 4) (nlayers := 5)
      (by decide) (by decide) (by decide)
    exact ⟨_, e⟩
  · obtain ⟨_, _, _, _, _, _, _, _, e, -⟩ := C37_gpt2_mlp (asIdx := fun _ => 0) (invalidate := false) h1 h2 h3 (by decide) (embed := 7) (embedTile := 3) (inner := 28)
      (innerTile := 8) (by decide) (by decide) (by decide) (by decide) (name := "gelutanh") (kind := .gelutanh) (by simp) true
    exact ⟨_, e⟩

end NNTile
