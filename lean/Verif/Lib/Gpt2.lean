import Verif.Lib.BuildGpt
/-!
# The constructor of `GPT2Model`
-/
namespace NNTile
open Finset
variable {asIdx : ℝ → Int} {invalidate : Bool} {inputs extra : List Moments} {b : Builder ℝ}

theorem LnInit.nil : LnInit [] [] := fun s _ => ⟨s, rfl, fun _ _ => rfl, by simp⟩

theorem LnInit.append {ts us : List (Task1 ℝ)} {ps qs : List (Moments × Moments)} (h1 : LnInit ts ps) (h2 : LnInit us qs)
    (hd : ((ps ++ qs).flatMap fun p => [p.1.value.id, p.2.value.id]).Nodup) : LnInit (ts ++ us) (ps ++ qs) := by
  rw [List.flatMap_append, List.nodup_append] at hd
  intro s hr
  obtain ⟨s1, e1, o1, v1⟩ := h1 s fun p hp => hr p (by simp [hp])
  obtain ⟨s2, e2, o2, v2⟩ := h2 s1 fun p hp => by
    have hn : ∀ i ∈ [p.1.value.id, p.2.value.id], i ∉ ps.flatMap fun p => [p.1.value.id, p.2.value.id] := fun i hi hj =>
      hd.2.2 i hj i (List.mem_flatMap.2 ⟨p, hp, hi⟩) rfl
    exact ⟨o1.ready (hr p (by simp [hp])).1 (hn _ (by simp)), o1.ready (hr p (by simp [hp])).2 (hn _ (by simp))⟩
  refine ⟨s2, ?_, ?_, ?_⟩
  · rw [runAll1_append, e1]
    exact e2
  · rw [List.flatMap_append]
    exact o1.trans o2
  · intro p hp
    rcases List.mem_append.1 hp with hp | hp
    · have hn : ∀ i ∈ [p.1.value.id, p.2.value.id], i ∉ qs.flatMap fun p => [p.1.value.id, p.2.value.id] := fun i hi hj =>
        hd.2.2 i (List.mem_flatMap.2 ⟨p, hp, hi⟩) i hj rfl
      exact ⟨o2.holds (v1 p hp).1 (hn _ (by simp)), o2.holds (v1 p hp).2.1 (hn _ (by simp)), o2.ready (v1 p hp).2.2.1 (hn _ (by simp)), o2.ready (v1 p hp).2.2.2 (hn _ (by simp))⟩
    · exact v2 p hp

/-- Tasks made of pieces, each of which initializes one layer. -/
inductive LnInits : List (Task1 ℝ) → List (Moments × Moments) → Prop
  | nil : LnInits [] []
  | one {ts p} : LnInit ts [p] → LnInits ts [p]
  | append {ts us ps qs} : LnInits ts ps → LnInits us qs → LnInits (ts ++ us) (ps ++ qs)

theorem LnInits.init {ts : List (Task1 ℝ)} {ps : List (Moments × Moments)} (h : LnInits ts ps) (hd : (ps.flatMap fun p => [p.1.value.id, p.2.value.id]).Nodup) : LnInit ts ps := by
  induction h with
  | nil => exact .nil
  | one h => exact h
  | append h1 h2 ih1 ih2 =>
    have hd' := hd
    rw [List.flatMap_append, List.nodup_append] at hd'
    exact (ih1 hd'.1).append (ih2 hd'.2.1) hd

theorem LnInits.of {ts : List (Task1 ℝ)} {ga be : Moments} (hq : ∀ s : Store ℝ, ga.value.Ready s → be.value.Ready s → ∃ s', runAll1 ts s = .ok s' ∧
    OnlyChanged [ga.value.id, be.value.id] s s' ∧ ga.value.Holds s' (fun _ => 1) ∧ be.value.Holds s' (fun _ => 0) ∧ ga.value.Ready s' ∧ be.value.Ready s') : LnInits ts [(ga, be)] := by
  refine .one fun s hs => ?_
  obtain ⟨s', e, o, a, b⟩ := hq s (hs (ga, be) (by simp)).1 (hs (ga, be) (by simp)).2
  exact ⟨s', e, o, by simpa using ⟨a, b⟩⟩

/-- The last activation of a constructor. -/
structure Last (b : Builder ℝ) (x : Moments) (S T : List Nat) : Prop where
  acts : ∃ A, b.acts = A ++ [x]
  usable : x.Usable
  required : x.gradRequired = true
  shape : x.value.shape = S
  tile : x.value.basetile = T

theorem Last.mem {x : Moments} {S T : List Nat} (h : Last b x S T) : x ∈ b.acts := by
  obtain ⟨A, hA⟩ := h.acts
  simp [hA]

/-- The value of a tensor in the network of a constructor. -/
noncomputable abbrev valAt (asIdx : ℝ → Int) (invalidate : Bool) (layers : List (PyLayer ℝ)) (env : Env) (m : Moments) : List Nat → ℝ := netEnv env (netOf asIdx invalidate layers) m.value.id

theorem biasValue_some (m : Moments) (env : Env) : biasValue (some m) env = env m.value.id := rfl

set_option maxHeartbeats 1000000 in
theorem gptBlock_grown (h : Grown asIdx invalidate inputs extra b) {x : Moments} {E S B tE tS tB : Nat} (hx : Last b x [E, S, B] [tE, tS, tB])
    {c : Gpt2Config ℝ} {D : Nat} {k : ActKind} (hE : E = D * c.nHead) (pz : 0 < E ∧ 0 < S ∧ 0 < B) (pt : 0 < tE ∧ 0 < tS ∧ 0 < tB ∧ 0 < c.nHeadTile)
    (cE : c.embedDim = E ∧ c.embedTile = tE) (pI : 0 < c.innerDim ∧ 0 < c.innerTile)
    (hfl : c.flash = true → tS ∣ S ∧ tB ∣ B ∧ c.nHeadTile ∣ c.nHead) (he : 0 < c.eps)
    (hk : (c.activation, k) ∈ [("relu", ActKind.relu), ("gelu", .gelu), ("gelutanh", .gelutanh)])
    {mask : Tensor} (hm : maskMoments mask ∈ extra) (mid : mask.id < b.next) (ms : mask.shape = [S, S] ∧ mask.basetile = [tS, tS]) (val : ℝ) :
    ∃ (p : GptBlockP Moments) (y : Moments) (ls : List (PyLayer ℝ)) (ts : List (Task1 ℝ)),
      gptBlock c mask val b = .ok (⟨b.acts ++ ls.map PyLayer.output, b.layers ++ ls, b.next + 76⟩, ts) ∧
      Grown asIdx invalidate inputs extra ⟨b.acts ++ ls.map PyLayer.output, b.layers ++ ls, b.next + 76⟩ ∧ ls.flatMap PyLayer.parameters = p.toList ∧
      Last ⟨b.acts ++ ls.map PyLayer.output, b.layers ++ ls, b.next + 76⟩ y [E, S, B] [tE, tS, tB] ∧ (∀ l ∈ ls, b.next ≤ l.output.value.id) ∧
      (∀ env, valAt asIdx invalidate (b.layers ++ ls) env y = gptBlockOut ⟨E, S, c.nHead, D, c.innerDim, c.eps, k.spec⟩
        (softAll S (fun I => maskBool asIdx (env mask.id I)) val) (valAt asIdx invalidate b.layers env x) (p.map fun m => env m.value.id)) ∧
      (∀ env, NetValid env (netOf asIdx invalidate b.layers) → NetValid env (netOf asIdx invalidate (b.layers ++ ls))) ∧
      (∀ env, k ≠ .relu → NetRegular env (netOf asIdx invalidate b.layers) → NetRegular env (netOf asIdx invalidate (b.layers ++ ls))) ∧
      p.Shapes E c.nHead D c.innerDim ∧ LnInits ts p.norms := by
  obtain ⟨A0, hA0⟩ := hx.acts
  have bk1 : b.back 1 = .ok x := by simp [Builder.back, hA0]
  -- first normalization
  obtain ⟨ga1, be1, y1, l1, ts1, e1, h1, o1, p1, u1, r1, s1, t1, i1, v1, w1, z1, q1⟩ := h.layerNorm hx.mem hx.usable hx.required (a := 0) (by rw [hx.shape]; simp) he c.redux
  rw [hx.shape] at s1 v1 z1
  rw [hx.tile] at t1
  -- attention
  obtain ⟨wq, wk, wv, bq, bk, bv, w, bo, y2, l2, e2, h2, o2, p2, u2, r2, s2, t2, i2, v2, w2, z2⟩ :=
    h1.attention (x := y1) (by simp) u1 hE s1 t1 pz pt hfl hm (by simp only; omega) (by omega) ms val c.redux
  simp only at e2 h2 i2 v2
  -- first residual connection
  have n32 : x.value.id ≠ y2.value.id := by have := h.act_lt hx.mem x.value.id (by simp [Moments.ids]); omega
  obtain ⟨y3, l3, e3, h3, o3, p3, u3, r3, s3, t3, i3, v3, w3⟩ := h2.addLayer (x := x) (y := y2) (by simp [hA0]) (by simp) hx.usable u2 hx.required r2 n32 (by rw [s2, hx.shape])
    (by rw [t2, hx.tile])
  simp only at e3 h3 i3 v3
  rw [hx.shape] at s3
  rw [hx.tile] at t3
  -- second normalization
  obtain ⟨ga4, be4, y4, l4, ts4, e4, h4, o4, p4, u4, r4, s4, t4, i4, v4, w4, z4, q4⟩ := h3.layerNorm (x := y3) (by simp) u3 r3 (a := 0) (by rw [s3]; simp) he c.redux
  simp only at e4 h4 i4 v4
  rw [s3] at s4 v4 z4
  rw [t3] at t4
  -- MLP
  obtain ⟨m1, y5, c1, l5, e5, h5, o5, p5, d5, u5, r5, s5, t5, i5, f5, g5, v5, w5⟩ := h4.linearR (x := y4) (by simp) u4 s4 t4 pI.1 pI.2 true c.redux
  obtain ⟨c1, rfl⟩ := Option.isSome_iff_exists.1 d5
  simp only at e5 h5 i5 v5
  obtain ⟨y6, l6, e6, h6, o6, p6, u6, r6, s6, t6, i6, v6, w6⟩ := h5.actR (x := y5) (by simp) u5 hk
  simp only at e6 h6 i6 v6
  rw [s5] at s6
  rw [t5] at t6
  obtain ⟨m2, y7, c2, l7, e7, h7, o7, p7, d7, u7, r7, s7, t7, i7, f7, g7, v7, w7⟩ := h6.linearR (x := y6) (by simp) u6 s6 t6 pz.1 pt.1 true c.redux
  obtain ⟨c2, rfl⟩ := Option.isSome_iff_exists.1 d7
  simp only at e7 h7 i7 v7
  -- second residual connection
  obtain ⟨y8, l8, e8, h8, o8, p8, u8, r8, s8, t8, i8, v8, w8⟩ := h7.addLayer (x := y3) (y := y7) (by simp) (by simp) u3 u7 r3 r7 (by
    have := h3.act_lt (m := y3) (by simp) y3.value.id (by simp [Moments.ids])
    simp only at this
    omega) (by rw [s7, s3]) (by rw [t7, t3])
  simp only at e8 h8 i8 v8
  rw [s3] at s8
  rw [t3] at t8
  have em : ∀ n, n = b.next + 60 → gpt2MlpBuild y4 E tE c.innerDim c.innerTile c.activation c.redux n = .ok (⟨[y4, y5, y6, y7], [l5, l6, l7], b.next + 74⟩ : Builder ℝ) := by
    rintro n rfl
    rw [gpt2MlpBuild]
    rw [e5 ⟨[y4], [], b.next + 60⟩ rfl, M.bind_ok]
    rw [Builder.back_one, M.bind_ok, e6 _ rfl, M.bind_ok, Builder.back_one, M.bind_ok, e7 _ rfl]
    rfl
  have hacts : b.acts ++ [l1, l2, l3, l4, l5, l6, l7, l8].map PyLayer.output = b.acts ++ [y1] ++ [y2] ++ [y3] ++ [y4] ++ [y5] ++ [y6] ++ [y7] ++ [y8] := by
    simp [o1, o2, o3, o4, o5, o6, o7, o8]
  have hlay : b.layers ++ [l1, l2, l3, l4, l5, l6, l7, l8] = b.layers ++ [l1] ++ [l2] ++ [l3] ++ [l4] ++ [l5] ++ [l6] ++ [l7] ++ [l8] := by simp
  refine ⟨⟨ga1, be1, wq, wk, wv, bq, bk, bv, w, bo, ga4, be4, m1, c1, m2, c2⟩, y8, [l1, l2, l3, l4, l5, l6, l7, l8], ts1 ++ ts4, ?_, ?_, ?_, ?_, ?_, ?_, ?_, ?_, ?_, ?_⟩
  · rw [gptBlock, bk1, M.bind_ok]
    refine (congrArg (· >>= _) e1).trans ?_
    rw [M.bind_ok]
    simp only
    rw [Builder.back_one, M.bind_ok, e2, M.bind_ok]
    have bk3 : Builder.back (⟨b.acts ++ [y1] ++ [y2], b.layers ++ [l1] ++ [l2], b.next + 10 + 38⟩ : Builder ℝ) 3 = .ok x := by simp [Builder.back, hA0]
    rw [bk3, M.bind_ok, Builder.back_one, M.bind_ok, e3, M.bind_ok, Builder.back_one, M.bind_ok]
    refine (congrArg (· >>= _) e4).trans ?_
    rw [M.bind_ok]
    simp only
    rw [Builder.back_one, M.bind_ok, cE.1, cE.2, em _ rfl, M.bind_ok]
    have ha' : b.acts ++ [y1] ++ [y2] ++ [y3] ++ [y4] ++ List.drop 1 [y4, y5, y6, y7] = b.acts ++ [y1] ++ [y2] ++ [y3] ++ [y4] ++ [y5] ++ [y6] ++ [y7] := by simp
    have hl' : b.layers ++ [l1] ++ [l2] ++ [l3] ++ [l4] ++ [l5, l6, l7] = b.layers ++ [l1] ++ [l2] ++ [l3] ++ [l4] ++ [l5] ++ [l6] ++ [l7] := by simp
    simp only [ha', hl']
    have bk5 : Builder.back (⟨b.acts ++ [y1] ++ [y2] ++ [y3] ++ [y4] ++ [y5] ++ [y6] ++ [y7], b.layers ++ [l1] ++ [l2] ++ [l3] ++ [l4] ++ [l5] ++ [l6] ++ [l7], b.next + 74⟩ : Builder ℝ) 5 =
        .ok y3 := by simp [Builder.back]
    rw [bk5, M.bind_ok, Builder.back_one, M.bind_ok]
    refine (congrArg (· >>= _) e8).trans ?_
    rw [M.bind_ok, hacts, hlay]
  · rw [hacts, hlay]
    exact h8
  · simp [p1, p2, p3, p4, p5, p6, p7, p8, GptBlockP.toList]
  · rw [hacts, hlay]
    exact ⟨⟨_, rfl⟩, u8, r8, s8, t8⟩
  · simp only [List.forall_mem_cons, o1, o2, o3, o4, o5, o6, o7, o8, List.not_mem_nil, IsEmpty.forall_iff, implies_true, and_true]
    omega
  · intro env
    simp only [valAt]
    rw [hlay]
    have hy3 := h3.act_lt (m := y3) (by simp) y3.value.id (by simp [Moments.ids])
    have hx0 := h.act_lt hx.mem x.value.id (by simp [Moments.ids])
    simp only at hy3
    have k3 : netEnv env (netOf asIdx invalidate (b.layers ++ [l1] ++ [l2] ++ [l3] ++ [l4] ++ [l5] ++ [l6] ++ [l7])) y3.value.id =
        netEnv env (netOf asIdx invalidate (b.layers ++ [l1] ++ [l2] ++ [l3])) y3.value.id := by
      rw [Grown.keep _ _ _ (by rw [o7]; omega), Grown.keep _ _ _ (by rw [o6]; omega), Grown.keep _ _ _ (by rw [o5]; omega), Grown.keep _ _ _ (by rw [o4]; omega)]
    have k0 : netEnv env (netOf asIdx invalidate (b.layers ++ [l1] ++ [l2])) x.value.id = netEnv env (netOf asIdx invalidate b.layers) x.value.id := by
      rw [Grown.keep _ _ _ (by rw [o2]; omega), Grown.keep _ _ _ (by rw [o1]; omega)]
    rw [v8, k3, v7, v6, v5, v4, v3, k0, v2, v1, biasValue_some, biasValue_some]
    rfl
  · intro env hv
    rw [hlay]
    simp only [netOf_snoc, NetValid_snoc]
    exact ⟨⟨⟨⟨⟨⟨⟨⟨hv, (w1 _).1⟩, (w2 _).1⟩, (w3 _).1⟩, (w4 _).1⟩, (w5 _).1⟩, (w6 _).1⟩, (w7 _).1⟩, (w8 _).1⟩
  · intro env hk' hv
    rw [hlay]
    simp only [netOf_snoc, NetRegular_snoc]
    exact ⟨⟨⟨⟨⟨⟨⟨⟨hv, (w1 _).2⟩, (w2 _).2⟩, (w3 _).2⟩, (w4 _).2⟩, (w5 _).2⟩, (w6 _).2 hk'⟩, (w7 _).2⟩, (w8 _).2⟩
  · simp only [List.map_cons, List.map_nil, List.cons.injEq, and_true] at z2
    have gc1 := g5 c1 rfl
    have gc2 := g7 c2 rfl
    simp [GptBlockP.Shapes, GptBlockP.toList, z1, z2, z4, f5, f7, gc1, gc2]
  · exact (LnInits.of q1).append (LnInits.of q4)

theorem gptBlocks_grown {E S B tE tS tB : Nat}
    {c : Gpt2Config ℝ} {D : Nat} {k : ActKind} (hE : E = D * c.nHead) (pz : 0 < E ∧ 0 < S ∧ 0 < B) (pt : 0 < tE ∧ 0 < tS ∧ 0 < tB ∧ 0 < c.nHeadTile)
    (cE : c.embedDim = E ∧ c.embedTile = tE) (pI : 0 < c.innerDim ∧ 0 < c.innerTile)
    (hfl : c.flash = true → tS ∣ S ∧ tB ∣ B ∧ c.nHeadTile ∣ c.nHead) (he : 0 < c.eps)
    (hk : (c.activation, k) ∈ [("relu", ActKind.relu), ("gelu", .gelu), ("gelutanh", .gelutanh)])
    {mask : Tensor} (hm : maskMoments mask ∈ extra) (ms : mask.shape = [S, S] ∧ mask.basetile = [tS, tS]) (val : ℝ) :
    ∀ (n : Nat) (b : Builder ℝ), Grown asIdx invalidate inputs extra b → mask.id < b.next → ∀ {x : Moments}, Last b x [E, S, B] [tE, tS, tB] →
    ∃ (ps : List (GptBlockP Moments)) (y : Moments) (ls : List (PyLayer ℝ)) (ts : List (Task1 ℝ)), ps.length = n ∧
      gptBlocks c mask val n b = .ok (⟨b.acts ++ ls.map PyLayer.output, b.layers ++ ls, b.next + n * 76⟩, ts) ∧
      Grown asIdx invalidate inputs extra ⟨b.acts ++ ls.map PyLayer.output, b.layers ++ ls, b.next + n * 76⟩ ∧ ls.flatMap PyLayer.parameters = ps.flatMap GptBlockP.toList ∧
      Last ⟨b.acts ++ ls.map PyLayer.output, b.layers ++ ls, b.next + n * 76⟩ y [E, S, B] [tE, tS, tB] ∧
      (∀ env, valAt asIdx invalidate (b.layers ++ ls) env y = (ps.map (GptBlockP.map fun m => env m.value.id)).foldl (gptBlockOut ⟨E, S, c.nHead, D, c.innerDim, c.eps, k.spec⟩
        (softAll S (fun I => maskBool asIdx (env mask.id I)) val)) (valAt asIdx invalidate b.layers env x)) ∧
      (∀ env, NetValid env (netOf asIdx invalidate b.layers) → NetValid env (netOf asIdx invalidate (b.layers ++ ls))) ∧
      (∀ env, k ≠ .relu → NetRegular env (netOf asIdx invalidate b.layers) → NetRegular env (netOf asIdx invalidate (b.layers ++ ls))) ∧
      (∀ p ∈ ps, p.Shapes E c.nHead D c.innerDim) ∧ LnInits ts (ps.flatMap GptBlockP.norms) := by
  intro n
  induction n with
  | zero =>
    intro b h _ x hx
    obtain ⟨A, L, N⟩ := b
    refine ⟨[], x, [], [], rfl, ?_, ?_, rfl, ?_, fun env => ?_, ?_, ?_, by simp, .nil⟩
    all_goals simp only [List.map_nil, List.append_nil, Nat.zero_mul, Nat.add_zero, List.foldl_nil]
    · rfl
    · exact h
    · exact hx
    · exact fun _ h => h
    · exact fun _ _ h => h
  | succ n ih =>
    intro b h mid x hx
    obtain ⟨p, y, ls, ts, e, hg, hp, hy, -, hv, hval, hreg, hsh, hin⟩ := gptBlock_grown h hx hE pz pt cE pI hfl he hk hm mid ms val
    obtain ⟨ps, y', ls', ts', hl', e', hg', hp', hy', hv', hval', hreg', hsh', hin'⟩ := ih _ hg (by simp only; omega) hy
    have ea : b.acts ++ ls.map PyLayer.output ++ ls'.map PyLayer.output = b.acts ++ (ls ++ ls').map PyLayer.output := by simp
    have el : b.layers ++ ls ++ ls' = b.layers ++ (ls ++ ls') := List.append_assoc ..
    have en : b.next + 76 + n * 76 = b.next + (n + 1) * 76 := by ring
    simp only at e' hg' hy' hv' hval' hreg'
    rw [ea, el, en] at e' hg' hy'
    rw [el] at hv' hval' hreg'
    refine ⟨p :: ps, y', ls ++ ls', ts ++ ts', by simp [hl'], ?_, hg', ?_, hy', ?_, fun env hh => hval' env (hval env hh), fun env hk' hh => hreg' env hk' (hreg env hk' hh), ?_, hin.append hin'⟩
    · rw [gptBlocks, e, M.bind_ok, e', M.bind_ok]
    · rw [List.flatMap_append, hp, hp', List.flatMap_cons]
    · intro env
      rw [hv', hv]
      rfl
    · intro q hq
      rcases List.mem_cons.1 hq with rfl | hq
      · exact hsh
      · exact hsh' q hq

end NNTile
