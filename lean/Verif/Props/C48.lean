import Verif.Lib.Gpt2
import Verif.Lib.GptMath
import Verif.Props.C37
import Verif.Props.C46
/-!
# C48: `GPT2Model` is a network which computes the output of a decoder-only transformer
-/
namespace NNTile
open Finset
variable {asIdx : ℝ → Int} {invalidate : Bool}

/-- **The constructor.** For tokens `ids` and positions `pos` it succeeds; the layers form a network (C36), whose inputs are `ids`, `pos`, the mask and the parameters; there are as many
blocks of parameters as layers were asked for, with the expected shapes; the last activation is the output of the transformer with the parameters, tokens and positions found in the
tensors. Forward propagation is defined for all tokens and positions within range, backward propagation too, at least if the activation function is not `relu`. -/
theorem C48_gpt2 {ids pos : Tensor} {c : Gpt2Config ℝ} {S B tS tB D : Nat} {k : ActKind} (hf : c.Fits ids pos S B tS tB D k) (hne : ids.id ≠ pos.id) {next : Nat}
    (hlt : ids.id < next ∧ pos.id < next) (val : ℝ) :
    let inputs : List Moments := [⟨ids, ids, false⟩, ⟨pos, pos, false⟩]
    ∃ (g : Gpt2Model ℝ) (acts : List Moments) (layers : List (PyLayer ℝ)) (p : GptP Moments) (out : Moments),
      gpt2 ⟨ids, ids, false⟩ ⟨pos, pos, false⟩ c val next = .ok g ∧ g.model = BaseModel.init acts layers ∧ g.mask = ⟨next, [S, S], [tS, tS]⟩ ∧
      IsNetwork asIdx invalidate (inputs ++ [maskMoments g.mask] ++ p.toList) layers ∧ acts = inputs ++ layers.map PyLayer.output ∧
      layers.flatMap PyLayer.parameters = p.toList ∧ p.blocks.length = c.nLayers ∧ p.Shapes c.vocabSize c.maxPos c.embedDim c.nHead D c.innerDim ∧
      (∀ m ∈ p.toList ++ layers.map PyLayer.output, m.Usable ∧ m.gradRequired = true) ∧ (∀ l ∈ netOf asIdx invalidate layers, ∀ T ∈ l.temps, T.WF) ∧
      acts.getLast? = some out ∧ out.value.shape = [c.vocabSize, S, B] ∧ LnInit g.tasks p.norms ∧
      (∀ env, netEnv env (netOf asIdx invalidate layers) out.value.id = gptOut ⟨c.embedDim, S, c.nHead, D, c.innerDim, c.eps, k.spec⟩
        (softAll S (fun I => maskBool asIdx (env g.mask.id I)) val) (p.map fun m => env m.value.id) (fun J => (asIdx (env ids.id J)).toNat) (fun J => (asIdx (env pos.id J)).toNat)) ∧
      ∀ env, (∀ J, InBox ids.shape J → 0 ≤ asIdx (env ids.id J) ∧ asIdx (env ids.id J) < c.vocabSize) →
        (∀ J, InBox pos.shape J → 0 ≤ asIdx (env pos.id J) ∧ asIdx (env pos.id J) < c.maxPos) →
        NetValid env (netOf asIdx invalidate layers) ∧ (k ≠ .relu → NetRegular env (netOf asIdx invalidate layers)) := by
  intro inputs
  obtain ⟨⟨i1, i2⟩, ⟨p1, p2⟩, ⟨zS, zB, zt, zu⟩, ⟨vo, vt, vp⟩, ⟨eE, eT, ed⟩, hin, ⟨hH, hHt⟩, hfl, heps, hact⟩ := hf
  have wids : ids.WF := by simp [Tensor.WF, Pos, *]
  have wpos : pos.WF := by simp [Tensor.WF, Pos, *]
  set mask : Tensor := ⟨next, [S, S], [tS, tS]⟩ with hmask
  have h0 : Grown asIdx invalidate inputs [maskMoments mask] ⟨inputs, [], next + 1⟩ := by
    refine Grown.init ?_ ?_
    · simp only [inputs, maskMoments, Moments.ids, Moments.gradIds, List.cons_append, List.nil_append, List.flatMap_cons, List.flatMap_nil, Bool.false_eq_true, if_false, List.nodup_cons,
        List.mem_cons, List.not_mem_nil, or_false, not_or, not_false_eq_true, List.nodup_nil, and_true, hmask]
      omega
    · simp only [inputs, maskMoments, Moments.ids, Moments.gradIds, List.cons_append, List.nil_append, List.flatMap_cons, List.flatMap_nil, Bool.false_eq_true, if_false, List.forall_mem_cons,
        List.not_mem_nil, IsEmpty.forall_iff, implies_true, and_true, hmask]
      omega
  obtain ⟨wte, y1, l1, e1, h1, o1, q1, u1, r1, s1, t1, j1, z1, v1, w1⟩ := h0.embedding (T := ids) (by simp [inputs]) (by simp [inputs]) wids vo eE eT vt ed
  simp only at e1 h1 j1 z1 v1 w1
  obtain ⟨wpe, y2, l2, e2, h2, o2, q2, u2, r2, s2, t2, j2, z2, v2, w2⟩ := h1.embedding (T := pos) (by simp [inputs]) (by simp [inputs]) wpos vp eE eT vt ed
  simp only at e2 h2 j2 z2 v2 w2
  rw [i1] at s1
  rw [i2] at t1
  rw [p1] at s2
  rw [p2] at t2
  have n12 : y1.value.id ≠ y2.value.id := by
    have := h1.act_lt (m := y1) (by simp) y1.value.id (by simp [Moments.ids])
    simp only at this
    omega
  obtain ⟨y3, l3, e3, h3, o3, q3, u3, r3, s3, t3, j3, v3, w3⟩ := h2.addSlice (x := y1) (y := y2) (by simp) (by simp) u1 u2 r1 r2 n12 (a := 2) (by simp [s1]) (by rw [s1, s2]; rfl)
    (by rw [t1, t2]; rfl) c.redux
  simp only at e3 h3 j3 v3
  rw [s1] at s3
  rw [t1] at t3
  obtain ⟨ps, y4, ls, ts, hl, e4, h4, q4, hy, v4, w4, w4', z4, k4⟩ := gptBlocks_grown (c := c) hH ⟨eE, zS, zB⟩ ⟨eT, zt, zu, hHt⟩ ⟨rfl, rfl⟩ hin hfl heps hact (mask := mask)
    (by simp) ⟨rfl, rfl⟩ val c.nLayers _ h3 (by simp only [hmask]; omega) (x := y3) ⟨⟨_, rfl⟩, u3, r3, s3, t3⟩
  simp only at e4 h4 hy v4 w4 w4'
  obtain ⟨A4, hA4⟩ := hy.acts
  simp only at hA4
  obtain ⟨gf, bf, y5, l5, ts5, e5, h5, o5, q5, u5, r5, s5, t5, j5, v5, w5, z5, k5⟩ := h4.layerNorm (x := y4) hy.mem hy.usable hy.required (a := 0) (by rw [hy.shape]; simp) heps c.redux
  simp only at e5 h5 j5 v5
  rw [hy.shape] at s5 v5 z5
  rw [hy.tile] at t5
  obtain ⟨lm, y6, bm, l6, e6, h6, o6, q6, b6, u6, r6, s6, t6, j6, f6, -, v6, w6⟩ := h5.linearR (x := y5) (by simp) u5 s5 t5 vo vo false c.redux
  have b6' : bm = none := by simpa using b6
  subst b6'
  simp only at e6 h6 j6 v6
  have hpar : ([] ++ [l1] ++ [l2] ++ [l3] ++ ls ++ [l5] ++ [l6] : List (PyLayer ℝ)).flatMap PyLayer.parameters = (⟨wte, wpe, ps, gf, bf, lm⟩ : GptP Moments).toList := by
    simp only [List.flatMap_append, List.flatMap_cons, List.flatMap_nil, q1, q2, q3, q4, q5, q6, GptP.toList, Option.toList_none]
    simp
  have hout : ([] ++ [l1] ++ [l2] ++ [l3] ++ ls ++ [l5] ++ [l6] : List (PyLayer ℝ)).map PyLayer.output = [y1] ++ [y2] ++ [y3] ++ ls.map PyLayer.output ++ [y5] ++ [y6] := by
    simp only [List.map_append, List.map_cons, List.map_nil, o1, o2, o3, o5, o6, List.nil_append]
  refine ⟨⟨BaseModel.init (inputs ++ [y1] ++ [y2] ++ [y3] ++ ls.map PyLayer.output ++ [y5] ++ [y6]) ([] ++ [l1] ++ [l2] ++ [l3] ++ ls ++ [l5] ++ [l6]), mask, ts ++ ts5, next + 1 + 4 + 4 + 2 + c.nLayers * 76 + 10 + 6⟩,
    inputs ++ [y1] ++ [y2] ++ [y3] ++ ls.map PyLayer.output ++ [y5] ++ [y6], [] ++ [l1] ++ [l2] ++ [l3] ++ ls ++ [l5] ++ [l6], ⟨wte, wpe, ps, gf, bf, lm⟩, y6, ?_, rfl, rfl, ?_, ?_, hpar, hl, ?_,
    ?_, h6.temps, ?_, s6, ?_, ?_, ?_⟩
  · have g0 : pyIndex [S, B] 0 = .ok S := by simp [pyIndex, throwIf]
    have g1 : pyIndex [tS, tB] 0 = .ok tS := by simp [pyIndex, throwIf]
    have g2 : newTensor next [S, S] [tS, tS] = .ok mask := newTensor_ok (by simp [Pos, zS, zt])
    rw [gpt2, i1, g0, M.bind_ok, i2, g1, M.bind_ok, g2, M.bind_ok]
    refine (congrArg (· >>= _) e1).trans ?_
    rw [M.bind_ok]
    refine (congrArg (· >>= _) e2).trans ?_
    rw [M.bind_ok]
    have bk2 : Builder.back (⟨inputs ++ [y1] ++ [y2], [] ++ [l1] ++ [l2], next + 1 + 4 + 4⟩ : Builder ℝ) 2 = .ok y1 := by simp [Builder.back, inputs]
    rw [bk2, M.bind_ok, Builder.back_one, M.bind_ok]
    refine (congrArg (· >>= _) e3).trans ?_
    rw [M.bind_ok]
    refine (congrArg (· >>= _) e4).trans ?_
    rw [M.bind_ok]
    have bk4 : Builder.back (⟨inputs ++ [y1] ++ [y2] ++ [y3] ++ ls.map PyLayer.output, [] ++ [l1] ++ [l2] ++ [l3] ++ ls, next + 1 + 4 + 4 + 2 + c.nLayers * 76⟩ : Builder ℝ) 1 = .ok y4 := by
      rw [hA4]
      exact Builder.back_one
    refine (congrArg (· >>= _) bk4).trans ?_
    rw [M.bind_ok]
    refine (congrArg (· >>= _) e5).trans ?_
    rw [M.bind_ok]
    simp only
    rw [Builder.back_one, M.bind_ok, e6 _ rfl, M.bind_ok]
  · rw [← hpar]
    exact h6.net
  · rw [hout]
    simp
  · exact ⟨j1, j2, z4, z5.1, z5.2, f6⟩
  · rw [← hpar]
    intro m hm
    obtain ⟨a1, a2, a3, a4⟩ := h6.wf m hm
    exact ⟨⟨a1, a2, a3⟩, a4⟩
  · exact List.getLast?_concat ..
  · refine LnInits.init (k4.append (.of k5)) ?_
    have hn : ((⟨wte, wpe, ps, gf, bf, lm⟩ : GptP Moments).toList.map fun m => m.value.id).Nodup := by
      refine values_nodup ?_
      have := (List.nodup_append.1 h6.net.ids).1
      rw [List.flatMap_append, List.nodup_append] at this
      rw [← hpar]
      exact this.2.1
    refine hn.sublist ?_
    simp only [GptP.toList, GptP.norms, List.map_cons, List.map_append, List.map_nil, List.flatMap_append, List.flatMap_cons, List.flatMap_nil]
    refine .cons _ (.cons _ (.append ?_ ?_))
    · clear * -
      induction ps with
      | nil => simp
      | cons q ps ih =>
        simp only [List.flatMap_cons, List.flatMap_append, List.map_append]
        refine .append ?_ ih
        simp [GptBlockP.norms, GptBlockP.toList]
        iterate 8 refine .cons _ ?_
        simp
    · simp
  · intro env
    rw [v6, v5, ← valAt, v4]
    simp only [valAt]
    rw [v3, v2, Grown.keep _ _ _ (by rw [o2]; exact n12), v1]
    have hemb : (fun I : List Nat => env wte.value.id [I.getD 0 0, (asIdx (env ids.id (I.eraseIdx 0))).toNat] +
        env wpe.value.id [(I.eraseIdx 2).getD 0 0, (asIdx (env pos.id ((I.eraseIdx 2).eraseIdx 0))).toNat]) =
        gptEmbed (env wte.value.id) (env wpe.value.id) (fun J => (asIdx (env ids.id J)).toNat) (fun J => (asIdx (env pos.id J)).toNat) := by
      funext I
      have : (I.eraseIdx 2).getD 0 0 = I.getD 0 0 := by cases I <;> rfl
      rw [this]
      rfl
    rw [hemb]
    rfl
  · intro env ht hp
    have a1 := w1 env ht
    have a2 := w2 env hp
    constructor
    · simp only [netOf_snoc, NetValid_snoc]
      have : NetValid env (netOf asIdx invalidate ([] ++ [l1] ++ [l2] ++ [l3])) := by
        simp only [netOf_snoc, NetValid_snoc]
        exact ⟨⟨⟨trivial, a1.1⟩, a2.1⟩, (w3 _).1⟩
      exact ⟨⟨w4 env this, (w5 _).1⟩, (w6 _).1⟩
    · intro hk
      simp only [netOf_snoc, NetRegular_snoc]
      have : NetRegular env (netOf asIdx invalidate ([] ++ [l1] ++ [l2] ++ [l3])) := by
        simp only [netOf_snoc, NetRegular_snoc]
        exact ⟨⟨⟨trivial, a1.2⟩, a2.2⟩, (w3 _).2⟩
      exact ⟨⟨w4' env hk this, (w5 _).2⟩, (w6 _).2⟩

/-- **What the constructor stores.** `from_array` and the submitted tasks set the mask to `i ≤ j`, the scales of all normalizations to one and their shifts to zero, and change nothing else
(except for the temporary tensor of `from_array`). -/
theorem C48_setup {g : Gpt2Model ℝ} {p : GptP Moments} {next S tS tmpId : Nat} (hm : g.mask = ⟨next, [S, S], [tS, tS]⟩) (ht : LnInit g.tasks p.norms) {s : Store ℝ} (rm : g.mask.Ready s)
    (htmp : tmpId ≠ next) (hn : ∀ q ∈ p.norms, (q.1.value.Ready s ∧ q.1.value.id ≠ next ∧ q.1.value.id ≠ tmpId) ∧ q.2.value.Ready s ∧ q.2.value.id ≠ next ∧ q.2.value.id ≠ tmpId) :
    ∃ s', g.setup tmpId s = .ok s' ∧ g.mask.Holds s' triuVal ∧ (∀ q ∈ p.norms, q.1.value.Holds s' (fun _ => 1) ∧ q.2.value.Holds s' (fun _ => 0) ∧ q.1.value.Ready s' ∧ q.2.value.Ready s') ∧ g.mask.Ready s' ∧
      OnlyChanged (next :: tmpId :: p.norms.flatMap fun q => [q.1.value.id, q.2.value.id]) s s' := by
  have hS : 0 < S := by
    have := rm.1.1
    rw [hm] at this
    simpa [Pos] using this
  have hfit : (triuMask (α := ℝ) S).Fits g.mask := by
    rw [hm]
    simp [NpArray.Fits, triuMask]
  have hx : (triuMask (α := ℝ) S).Holds fun I => triuVal (npIndex g.mask I) := by
    intro I hI
    obtain ⟨i, j, rfl⟩ : ∃ i j, I = [i, j] := by
      have := hI.length
      simp only [triuMask, List.length_cons, List.length_nil] at this
      exact List.length_eq_two.1 this
    have hi : i < S ∧ j < S := by simpa [triuMask, InBox_cons] using hI
    have e1 : lin [S, S] [i, j] = i + S * j := by simp [lin]
    have e2 : (i + S * j) % S = i := by rw [Nat.add_mul_mod_self_left, Nat.mod_eq_of_lt hi.1]
    have e3 : (i + S * j) / S = j := by rw [Nat.add_mul_div_left _ _ hS, Nat.div_eq_of_lt hi.1, Nat.zero_add]
    simp only [triuMask, e1, e2, e3, hm, npIndex, triuVal]
    simp
  have hid : tmpId ≠ g.mask.id := by rw [hm]; exact htmp
  obtain ⟨s1, e1, v1, r1, o1⟩ := C46_from_array rm hid hfit hx
  have o1' : OnlyChanged [next, tmpId] s s1 := by rw [hm] at o1; exact o1
  obtain ⟨s2, e2, o2, v2⟩ := ht s1 fun q hq => ⟨o1'.ready (hn q hq).1.1 (by simp [(hn q hq).1.2]), o1'.ready (hn q hq).2.1 (by simp [(hn q hq).2.2])⟩
  have hmn : g.mask.id ∉ p.norms.flatMap fun q => [q.1.value.id, q.2.value.id] := by
    rw [hm]
    intro h
    obtain ⟨q, hq, h⟩ := List.mem_flatMap.1 h
    simp only [List.mem_cons, List.not_mem_nil, or_false] at h
    rcases h with h | h
    · exact (hn q hq).1.2.1 h.symm
    · exact (hn q hq).2.2.1 h.symm
  refine ⟨s2, ?_, o2.holds v1 hmn, v2, o2.ready r1 hmn, (o1'.trans o2).mono (by simp)⟩
  have : g.mask.shape.getD 0 0 = S := by rw [hm]; rfl
  rw [Gpt2Model.setup, this, e1, M.bind_ok, e2]

/-- **Propagation.** With the mask `i ≤ j` in the mask tensor (C48_setup), parameters, tokens and positions in theirs, and all tensors of the network registered, `forward_async` leaves the
output of the transformer, where scores of later positions are replaced by `val`, in the last activation; then, if the activation function is not `relu`, `backward_async` adds to the gradients
of the parameters the product of the transposed Jacobian of this function and the gradients of the activations. -/
theorem C48_propagation {ids pos : Tensor} {c : Gpt2Config ℝ} {S B tS tB D : Nat} {k : ActKind} (hf : c.Fits ids pos S B tS tB D k) (hne : ids.id ≠ pos.id) {next : Nat}
    (hlt : ids.id < next ∧ pos.id < next) (val : ℝ) (h1 : asIdx 1 ≠ 0) (h0 : asIdx 0 = 0) :
    ∃ (g : Gpt2Model ℝ) (layers : List (PyLayer ℝ)) (p : GptP Moments) (out : Moments),
      gpt2 ⟨ids, ids, false⟩ ⟨pos, pos, false⟩ c val next = .ok g ∧ g.model.activations.getLast? = some (.moments out) ∧ g.model.parameters = p.toList.map .moments ∧
      out.value.shape = [c.vocabSize, S, B] ∧ p.blocks.length = c.nLayers ∧ g.model.layers = layers ∧ g.mask = ⟨next, [S, S], [tS, tS]⟩ ∧
      p.Shapes c.vocabSize c.maxPos c.embedDim c.nHead D c.innerDim ∧ LnInit g.tasks p.norms ∧
      IsNetwork asIdx invalidate ([⟨ids, ids, false⟩, ⟨pos, pos, false⟩, maskMoments g.mask] ++ p.toList) layers ∧
      (∀ m ∈ p.toList ++ layers.map PyLayer.output, m.Usable ∧ m.gradRequired = true) ∧ (∀ l ∈ netOf asIdx invalidate layers, ∀ T ∈ l.temps, T.WF) ∧
      (let given : List Moments := [⟨ids, ids, false⟩, ⟨pos, pos, false⟩, maskMoments g.mask] ++ p.toList
      let net := netOf asIdx invalidate layers
      ∀ (s : Store ℝ) (env : Env), NetReady given net s → (∀ m ∈ given, m.value.Holds s (env m.value.id)) → env g.mask.id = triuVal →
        (∀ J, InBox ids.shape J → 0 ≤ asIdx (env ids.id J) ∧ asIdx (env ids.id J) < c.vocabSize) →
        (∀ J, InBox pos.shape J → 0 ≤ asIdx (env pos.id J) ∧ asIdx (env pos.id J) < c.maxPos) →
        Runs (g.model.forwardAsync asIdx invalidate) s (fwdIds net) (fun s' =>
          out.value.Holds s' (gptOut ⟨c.embedDim, S, c.nHead, D, c.innerDim, c.eps, k.spec⟩ (softAll S (fun I => decide (I.getD 0 0 ≤ I.getD 1 0)) val) (p.map fun m => env m.value.id)
            (fun J => (asIdx (env ids.id J)).toNat) (fun J => (asIdx (env pos.id J)).toNat)) ∧
          (k ≠ .relu → ∀ G : Env, GradsHold (given ++ net.map NetLayer.out) s' G →
            Runs (g.model.backwardAsync asIdx invalidate) s' (bwdIds net) (fun s'' => ∃ d : Env, GradsHold given s'' (fun i J => G i J + d i J) ∧ IsNetVJP given net env G d)))) := by
  obtain ⟨g, acts, layers, p, out, e, em, hm, hnet, hacts, hpar, hlen, hsh, hus, htm, hlast, hout, hln, hv, hval⟩ := C48_gpt2 (asIdx := asIdx) (invalidate := invalidate) hf hne hlt val
  refine ⟨g, layers, p, out, e, ?_, ?_, hout, hlen, by rw [em]; rfl, hm, hsh, hln, hnet, hus, htm, ?_⟩
  · rw [em]
    simp only [BaseModel.init, List.getLast?_map, hlast, Option.map_some]
  · rw [em, ← hpar]
    simp only [BaseModel.init, List.map_flatMap]
  · intro given net s env hr hh hmask ht hp
    rw [em]
    refine (C36_forward acts hnet hr hh (hval env ht hp).1).imp (fun _ h => h) fun s' _ hs' => ⟨?_, ?_⟩
    · have hmem : out ∈ (netOf asIdx invalidate layers).map NetLayer.out := by
        have e3 : (netOf asIdx invalidate layers).map NetLayer.out = layers.map PyLayer.output := by
          rw [netOf, List.map_map]
          exact List.map_congr_left fun l _ => l.toNet_out
        rw [e3]
        have := List.mem_of_getLast? hlast
        rw [hacts] at this
        rcases List.mem_append.1 this with h | h
        · rw [hacts] at hlast
          cases hl : layers.map PyLayer.output with
          | nil =>
            exfalso
            rw [hl, List.append_nil] at hlast
            simp only [List.getLast?_cons_cons, List.getLast?_singleton, Option.some.injEq] at hlast
            rw [← hlast, hf.pos.1] at hout
            simp at hout
          | cons a as =>
            rw [hl, List.getLast?_append_of_ne_nil _ (by simp)] at hlast
            exact List.mem_of_getLast? hlast
        · exact h
      have := hs'.1 out (List.mem_append_right _ hmem)
      have h2 := this.2
      rw [hv env, hmask] at h2
      have e1 : (fun I => maskBool asIdx (triuVal I)) = fun I => decide (I.getD 0 0 ≤ I.getD 1 0) := by
        funext I
        unfold triuVal maskBool
        by_cases hc : I.getD 0 0 ≤ I.getD 1 0
        · rw [if_pos hc, decide_eq_true hc]
          simpa using h1
        · rw [if_neg hc, h0, decide_eq_false hc]
          rfl
      rw [e1] at h2
      exact h2
    · intro hk G hG
      exact (C36_backward acts hnet hs' ((hval env ht hp).2 hk) hG).imp (fun _ h => h) fun s'' _ h => h.2

/-- **Causality.** If later positions have weight zero, the output at position `j` depends on the tokens and positions up to `j` of the same element of the batch only. -/
theorem C48_causal (z : GptDims) (p : GptP (List Nat → ℝ)) {tok tok' pos pos' : List Nat → Nat} {j n : Nat} (ht : ∀ s, s ≤ j → tok [s, n] = tok' [s, n])
    (hp : ∀ s, s ≤ j → pos [s] = pos' [s]) (v : Nat) : gptOut z softCausal p tok pos [v, j, n] = gptOut z softCausal p tok' pos' [v, j, n] := by
  have h0 : AgreeUpTo j n (gptEmbed p.wte p.wpe tok pos) (gptEmbed p.wte p.wpe tok' pos') := by
    intro e s hs
    rw [gptEmbed_at, gptEmbed_at, ht s hs, hp s hs]
  exact (((h0.blocks z p.blocks).ln z.E z.eps p.gf p.bf).lin z.E p.lm 0) v j (le_refl _)

theorem actKind_continuous (k : ActKind) : Continuous k.spec := by
  cases k
  · exact continuous_id.max continuous_const
  · exact C25_gelu_differentiable.continuous
  · exact C25_gelutanh_differentiable.continuous

/-- **The limit.** When the number in place of the scores of later positions tends to minus infinity (the code uses minus infinity), the output of the network tends to the output of the
transformer whose weights of later positions are zero and whose other weights are a softmax. -/
theorem C48_limit (z : GptDims) (he : 0 < z.eps) {k : ActKind} (hk : z.phi = k.spec) (p : GptP (List Nat → ℝ)) (tok pos : List Nat → Nat) {s : Nat} (hs : s < z.S) (v n : Nat) :
    Filter.Tendsto (fun val => gptOut z (softAll z.S (fun I => decide (I.getD 0 0 ≤ I.getD 1 0)) val) p tok pos [v, s, n]) Filter.atBot
      (nhds (gptOut z softCausal p tok pos [v, s, n])) := by
  have h0 : ConvTo z.S (fun _ => gptEmbed p.wte p.wpe tok pos) (gptEmbed p.wte p.wpe tok pos) := fun e s n _ => tendsto_const_nhds
  exact (((h0.blocks (allowed := fun I => decide (I.getD 0 0 ≤ I.getD 1 0)) (fun _ _ _ _ => rfl) z rfl he (hk ▸ actKind_continuous k) p.blocks).ln z.E he p.gf p.bf).lin z.E p.lm 0) v s n hs

/-- The functions above in terms of elements. -/
theorem C48_meaning (z : GptDims) (soft : (List Nat → ℝ) → List Nat → ℝ) (p : GptP (List Nat → ℝ)) (q : GptBlockP (List Nat → ℝ)) (tok pos : List Nat → Nat) (x : List Nat → ℝ)
    (e s n v : Nat) :
    gptEmbed p.wte p.wpe tok pos [e, s, n] = p.wte [e, tok [s, n]] + p.wpe [e, pos [s]] ∧
    gptMlp z q x [e, s, n] = ∑ i ∈ range z.inner, q.w2 [e, i] * z.phi (∑ e' ∈ range z.E, q.w1 [i, e'] * x [e', s, n] + q.c1 [i]) + q.c2 [e] ∧
    selfAttn z soft q x [e, s, n] = ∑ h ∈ range z.H, ∑ d ∈ range z.D, q.w [e, h, d] * (∑ i ∈ range z.S, (∑ e' ∈ range z.E, q.wv [h, d, e'] * x [e', i, n] + q.bv [d, h]) *
      soft (attnScore z.D (attnProj z.E q.wk x q.bk) (attnProj z.E q.wq x q.bq)) [i, s, n, h]) + q.bo [e] ∧
    gptOut z soft p tok pos [v, s, n] = ∑ e ∈ range z.E, p.lm [v, e] *
      lnOut 0 z.E z.eps p.gf p.bf (p.blocks.foldl (gptBlockOut z soft) (gptEmbed p.wte p.wpe tok pos)) [e, s, n] := by
  refine ⟨rfl, ?_, rfl, ?_⟩
  · rw [gptMlp, linearR_at]
    simp only [linearR_at]
  · rw [gptOut, linearR_at]
    simp

/-! ### The hypotheses can be met -/

/-- A small model: vocabulary of 11 tokens, embedding size 4, two heads, sequences of 3 tokens, two blocks. -/
noncomputable def gptExampleConfig : Gpt2Config ℝ where
  vocabSize := 11
  vocabEmbedTile := 1
  embedDim := 4
  embedTile := 2
  maxPos := 5
  innerDim := 8
  innerTile := 3
  eps := 1 / 100000
  nLayers := 2
  nHead := 2
  nHeadTile := 1
  activation := "gelutanh"
  flash := false
  redux := false

theorem gptExample : gptExampleConfig.Fits ⟨0, [3, 2], [2, 1]⟩ ⟨1, [3], [2]⟩ 3 2 2 1 2 .gelutanh := by
  constructor <;> simp [gptExampleConfig]

/-- The constructor succeeds, and there are states and contents which satisfy the hypotheses of `C48_setup` and `C48_propagation`. -/
example : ∃ (g : Gpt2Model ℝ) (layers : List (PyLayer ℝ)) (p : GptP Moments) (s : Store ℝ) (env : Env), gpt2 ⟨⟨0, [3, 2], [2, 1]⟩, ⟨0, [3, 2], [2, 1]⟩, false⟩
    ⟨⟨1, [3], [2]⟩, ⟨1, [3], [2]⟩, false⟩ gptExampleConfig (-1000) 2 = .ok g ∧ p.blocks.length = 2 ∧
    NetReady ([⟨⟨0, [3, 2], [2, 1]⟩, ⟨0, [3, 2], [2, 1]⟩, false⟩, ⟨⟨1, [3], [2]⟩, ⟨1, [3], [2]⟩, false⟩, maskMoments g.mask] ++ p.toList) (netOf (fun x => ⌊x⌋) true layers) s ∧
    env g.mask.id = triuVal ∧ (∀ m ∈ maskMoments g.mask :: p.toList, m.value.Holds s (env m.value.id)) := by
  obtain ⟨g, acts, layers, p, out, e, em, hm, hnet, hacts, hpar, hlen, hsh, hus, htm, -⟩ := C48_gpt2 (asIdx := fun x => ⌊x⌋) (invalidate := true) gptExample (by decide) (next := 2) (by decide) (-1000)
  obtain ⟨s, hs, hv, -⟩ := C37_registered hnet (by
    intro m hmem
    simp only [List.mem_append, List.mem_cons, List.not_mem_nil, or_false] at hmem
    rcases hmem with (((rfl | rfl) | rfl) | hmem) | hmem
    · exact ⟨by simp [Tensor.WF, Pos], rfl, rfl⟩
    · exact ⟨by simp [Tensor.WF, Pos], rfl, rfl⟩
    · rw [hm]; exact ⟨by simp [Tensor.WF, Pos, maskMoments], rfl, rfl⟩
    · exact (hus m (by simp [hmem])).1
    · exact (hus m (List.mem_append_right _ hmem)).1) htm (fun i => if i = g.mask.id then triuVal else fun _ => 0) 0
  refine ⟨g, layers, p, s, fun i => if i = g.mask.id then triuVal else fun _ => 0, e, hlen, hs, if_pos rfl, fun m hm' => hv m ?_⟩
  simp only [List.cons_append, List.nil_append, List.mem_cons] at hm' ⊢
  tauto

/-- The same model with FlashAttention, for sequences of 4 tokens. -/
theorem gptFlashExample : ({ gptExampleConfig with flash := true } : Gpt2Config ℝ).Fits ⟨0, [4, 2], [2, 1]⟩ ⟨1, [4], [2]⟩ 4 2 2 1 2 .gelutanh := by
  constructor <;> simp [gptExampleConfig]

example : ∃ g : Gpt2Model ℝ, gpt2 ⟨⟨0, [4, 2], [2, 1]⟩, ⟨0, [4, 2], [2, 1]⟩, false⟩ ⟨⟨1, [4], [2]⟩, ⟨1, [4], [2]⟩, false⟩ { gptExampleConfig with flash := true } (-1000) 2 = .ok g := by
  obtain ⟨g, -, -, -, -, e, -⟩ := C48_gpt2 (asIdx := fun x => ⌊x⌋) (invalidate := true) gptFlashExample (by decide) (next := 2) (by decide) (-1000)
  exact ⟨g, e⟩

end NNTile
