import Verif.Lib.NetGrow
/-!
# The constructor of `MlpMixer`
-/
namespace NNTile
open Finset
variable {inputs params : List Moments} {nets : List NetLayer} {next : Nat}

theorem seqAsync_flat {α : Type} (a p q : List (M (List (Task1 α)))) : seqAsync (a ++ seqAsync p :: q) = seqAsync (a ++ (p ++ q)) := by
  rw [seqAsync_append, show seqAsync (seqAsync p :: q) = seqAsync (p ++ q) from seqAsync_inner p q]
  exact (seqAsync_append a (p ++ q)).symm

/-- Equality at indices of three dimensions. -/
def Eq3 (f g : List Nat → ℝ) : Prop := ∀ i j k, f [i, j, k] = g [i, j, k]

theorem lnOut_eq3 {l : Nat} {eps : ℝ} {γ β x x' : List Nat → ℝ} (h : Eq3 x x') : Eq3 (lnOut 2 l eps γ β x) (lnOut 2 l eps γ β x') := by
  intro i j k
  have hm : lnMean 2 l x [i, j] = lnMean 2 l x' [i, j] := by
    unfold lnMean
    congr 1
    exact sum_congr rfl fun p _ => h i j p
  have hv : lnVar 2 l x [i, j] = lnVar 2 l x' [i, j] := by
    unfold lnVar
    rw [hm]
    congr 1
    exact sum_congr rfl fun p _ => by rw [show [i, j].insertIdx 2 p = [i, j, p] from rfl, h i j p]
  simp only [lnOut, lnHat, lnInv, show [i, j, k].eraseIdx 2 = [i, j] from rfl, hm, hv, h i j k]

theorem mixTokens_eq3 {n : Nat} {u1 u2 x x' : List Nat → ℝ} (h : Eq3 x x') : Eq3 (mixTokens n u1 u2 x) (mixTokens n u1 u2 x') := by
  intro i j k
  simp only [mixTokens, h _ _ _]

theorem mixChannels_eq3 {n : Nat} {u1 u2 x x' : List Nat → ℝ} (h : Eq3 x x') : Eq3 (mixChannels n u1 u2 x) (mixChannels n u1 u2 x') := by
  intro i j k
  simp only [mixChannels, h _ _ _]

theorem mixBlockOut_eq3 {n E : Nat} {p : MixBlockP (List Nat → ℝ)} {x x' : List Nat → ℝ} (h : Eq3 x x') : Eq3 (mixBlockOut n E x p) (mixBlockOut n E x' p) := by
  have h1 : Eq3 (fun I => x I + mixTokens n p.u1 p.u2 (lnOut 2 E mixEps p.g1 p.b1 x) I) (fun I => x' I + mixTokens n p.u1 p.u2 (lnOut 2 E mixEps p.g1 p.b1 x') I) := by
    intro i j k
    show x [i, j, k] + _ = x' [i, j, k] + _
    rw [h i j k, mixTokens_eq3 (lnOut_eq3 h) i j k]
  intro i j k
  show _ + mixChannels _ _ _ _ _ = _ + mixChannels _ _ _ _ _
  have := mixChannels_eq3 (n := E) (u1 := p.v1) (u2 := p.v2) (lnOut_eq3 (l := E) (eps := mixEps) (γ := p.g2) (β := p.b2) h1) i j k
  rw [this]
  congr 1
  exact h1 i j k

theorem mixBlocks_eq3 {n E : Nat} (ps : List (MixBlockP (List Nat → ℝ))) : ∀ {x x' : List Nat → ℝ}, Eq3 x x' → Eq3 (ps.foldl (mixBlockOut n E) x) (ps.foldl (mixBlockOut n E) x') := by
  induction ps with
  | nil => intro x x' h; exact h
  | cons p ps ih => intro x x' h; exact ih (mixBlockOut_eq3 h)

/-- The MLP of one of the sides. -/
noncomputable def mixMlp (n e : Nat) : Side → (List Nat → ℝ) → (List Nat → ℝ) → (List Nat → ℝ) → List Nat → ℝ
  | .R => mixTokens n
  | .L => mixChannels e

/-- The dimension of one of the sides. -/
def mixSize (n e : Nat) : Side → Nat
  | .R => n
  | .L => e

theorem mixEps_pos : (0 : ℝ) < mixEps := by unfold mixEps; norm_num

/-- Normalization, MLP and residual connection. -/
theorem mix_half (h : NGrown inputs nets params next) (invalidate : Bool) {x : Moments} (hxm : x ∈ inputs ++ nets.map NetLayer.out) (ux : x.Usable) (rx : x.gradRequired = true) {n b e tb : Nat}
    (hs : x.value.shape = [n, b, e]) (ht : x.value.basetile = [n, tb, e]) (side : Side) :
    ∃ (no : LayerNorm ℝ) (ts : List (Task1 ℝ)) (m : MixerMlp), LayerNorm.generate x 2 mixEps next false = .ok (no, ts) ∧ no.x = x ∧ MixerMlp.generate no.y side (next + 10) = .ok m ∧
      m.parameters = [m.linear1.w, m.linear2.w] ∧ m.y = m.linear2.y ∧
      NGrown inputs (nets ++ mixHalf invalidate no m) (params ++ [no.gamma, no.beta, m.linear1.w, m.linear2.w]) (next + 24) ∧
      (∀ given, Ordered given (mixHalf invalidate no m) → (netIds given (mixHalf invalidate no m)).Nodup → SegBack [] given (mixHalf invalidate no m)
        (seqAsync [m.backwardAsync, no.backwardAsync invalidate, addAsync 1 m.linear2.y.grad 1 x.grad])) ∧
      netForward (mixHalf invalidate no m) = seqAsync [no.forwardAsync, m.forwardAsync, addAsync 1 x.value 1 m.y.value] ∧
      m.y.Usable ∧ m.y.gradRequired = true ∧ m.y.value.shape = [n, b, e] ∧ m.y.value.basetile = [n, tb, e] ∧
      (no.gamma.value.shape = [e] ∧ no.beta.value.shape = [e] ∧ m.linear1.w.value.shape = (match side with | .R => [n * 4, n] | .L => [e, e * 4]) ∧
        m.linear2.w.value.shape = (match side with | .R => [n, n * 4] | .L => [e * 4, e])) ∧ LnInits ts [(no.gamma, no.beta)] ∧
      ∀ env, Eq3 (netEnv env (nets ++ mixHalf invalidate no m) m.y.value.id) (fun I => netEnv env nets x.value.id I +
        mixMlp n e side (env m.linear1.w.value.id) (env m.linear2.w.value.id) (lnOut 2 e mixEps (env no.gamma.value.id) (env no.beta.value.id) (netEnv env nets x.value.id)) I) := by
  have hw := ux.1
  rw [Tensor.WF, hs, ht] at hw
  simp only [Pos, List.forall_mem_cons, List.not_mem_nil, IsEmpty.forall_iff, implies_true, and_true] at hw
  obtain ⟨⟨n0, b0, e0⟩, ⟨n1, b1, e1⟩, -⟩ := hw
  obtain ⟨no, ts, g1, x1, c1, h1, u1, r1, f1, s1, t1, v1, z1, k1⟩ := h.layerNorm invalidate hxm ux rx (a := 2) (by simp [hs]) mixEps_pos false
  rw [hs] at s1 z1 v1
  rw [ht] at t1
  simp only [List.getD_cons_succ, List.getD_cons_zero] at z1 v1
  have q0 : 0 < mixSize n e side := by cases side <;> assumption
  obtain ⟨l1, g2, x2, b2, c2, h2, u2, r2, f2, s2, t2, z2, v2⟩ := h1.linear (x := no.y) (by simp [LayerNorm.toNet]) u1 side (by simp [Tensor.ndim, s1]) (S := mixSize n e side * 4) (B := mixSize n e side * 4)
    (by omega) (by omega) none (by simp)
  simp only [NetLayer.resOpt] at h2 v2
  obtain ⟨ac, g3, x3, c3, h3, u3, r3, f3, s3, t3, v3⟩ := h2.act (x := l1.y) (by simp [Linear.toNet]) u2
  have xin : x ∈ inputs ++ (nets ++ [no.toNet (no.eps ^ 2) invalidate] ++ [l1.toNet] ++ [ac.toNet]).map NetLayer.out := by
    simp only [List.map_append, List.mem_append] at hxm ⊢
    tauto
  have hlt : x.value.id < next := h.lt hxm _ x.value_mem_ids
  have xne : x ≠ ac.y := by
    intro e
    rw [← e] at f3
    omega
  rw [s1] at s2 z2
  rw [t1] at t2
  rw [s2] at s3
  rw [t2] at t3
  have hyS : linearY side .noTrans 1 ac.y.value.shape [mixSize n e side] = [n, b, e] := by
    rw [s3]; cases side <;> rfl
  have hyT : linearY side .noTrans 1 ac.y.value.basetile [mixSize n e side] = [n, tb, e] := by
    rw [t3]; cases side <;> rfl
  obtain ⟨l2, g4, x4, b4, c4, h4, u4, r4, f4, s4, t4, z4, v4⟩ := h3.linear (x := ac.y) (by simp [Act.toNet]) u3 side (by simp [Tensor.ndim, s3]; cases side <;> simp [linearY, exceptLast])
    (S := mixSize n e side) (B := mixSize n e side) q0 q0 (some x) (by
      intro q hq
      obtain rfl : x = q := by simpa using hq
      exact ⟨xin, xne, ux, rx, hs.trans hyS.symm, ht.trans hyT.symm⟩)
  simp only [NetLayer.resOpt, Option.elim] at h4 v4
  rw [s3] at z4
  rw [hyS] at s4
  rw [hyT] at t4
  have hhalf : mixHalf invalidate no ⟨side, no.y, l2.y, l1, l2, ac⟩ = [no.toNet (no.eps ^ 2) invalidate, l1.toNet, ac.toNet, l2.toNet.withResidual x] := by
    rw [mixHalf, x1]
  have hnets : nets ++ [no.toNet (no.eps ^ 2) invalidate] ++ [l1.toNet] ++ [ac.toNet] ++ [l2.toNet.withResidual x] =
      nets ++ mixHalf invalidate no ⟨side, no.y, l2.y, l1, l2, ac⟩ := by
    rw [hhalf]; simp
  rw [hnets] at h4 v4
  refine ⟨no, ts, ⟨side, no.y, l2.y, l1, l2, ac⟩, g1, x1, ?_, ?_, rfl, ?_, ?_, ?_, u4, r4, s4, t4, ⟨z1.1, z1.2, ?_, ?_⟩, k1, ?_⟩
  · have hsz : mixerMlpSize no.y side = .ok (mixSize n e side) := by
      cases side
      · simp [mixerMlpSize, pyIndex, s1, throwIf, mixSize, M.bind_ok]
      · simp [mixerMlpSize, pyIndex, s1, throwIf, mixSize, M.bind_ok]
    rw [MixerMlp.generate, hsz, M.bind_ok, g2, M.bind_ok, show next + 10 + 6 = next + 10 + 6 from rfl, g3, M.bind_ok]
    rw [show next + 10 + 8 = next + 10 + 6 + 2 by omega, g4, M.bind_ok]
  · simp [MixerMlp.parameters, b2, b4]
  · have : params ++ [no.gamma, no.beta] ++ [l1.w] ++ [l2.w] = params ++ [no.gamma, no.beta, l1.w, l2.w] := by simp
    rw [← this]
    exact h4
  · intro given ho hn
    rw [hhalf] at ho hn ⊢
    have hxg : x ∈ given := by
      refine ho.1 x ?_
      show x ∈ [no.x, _, _]
      simp [x1]
    have key := residual_segBack (given := given) (p := [no.toNet (no.eps ^ 2) invalidate, l1.toNet, ac.toNet]) (l := l2.toNet) (x := x) ?_ ?_ ?_ hxg rx ?_ ?_ u4.2
    · refine Eq.mp ?_ key
      congr 1
      unfold netBackward
      rw [seqAsync_inner]
      simp only [MixerMlp.backwardAsync]
      rw [seqAsync_inner]
      rfl
    · intro l' hl'
      simp only [List.cons_append, List.nil_append, List.mem_cons, List.not_mem_nil, or_false] at hl'
      rcases hl' with rfl | rfl | rfl | rfl <;> assumption
    · refine ⟨ho.1, ho.2.1, ho.2.2.1, fun m hm => ho.2.2.2.1 m (List.mem_append_left _ hm), trivial⟩
    · exact hn
    · exact hs.trans s4.symm
    · exact ⟨ux.2.1.trans (hs.trans s4.symm), ux.2.2.trans (ht.trans t4.symm)⟩
  · rw [hhalf]
    show seqAsync ([no.forwardAsync, l1.forwardAsync, ac.forwardAsync] ++ seqAsync [l2.forwardAsync, addAsync 1 x.value 1 l2.y.value] :: []) = _
    rw [seqAsync_flat]
    show _ = seqAsync ([no.forwardAsync] ++ seqAsync [l1.forwardAsync, ac.forwardAsync, l2.forwardAsync] :: [addAsync 1 x.value 1 l2.y.value])
    rw [seqAsync_flat]
    rfl
  · show l1.w.value.shape = _
    rw [z2]; cases side <;> rfl
  · show l2.w.value.shape = _
    rw [z4]; cases side <;> rfl
  · intro env i j k
    show netEnv env (nets ++ mixHalf invalidate no _) l2.y.value.id [i, j, k] = _
    rw [v4]
    have k1 : netEnv env (nets ++ [no.toNet (no.eps ^ 2) invalidate] ++ [l1.toNet] ++ [ac.toNet]) x.value.id = netEnv env nets x.value.id := by
      rw [netEnv_snoc, netEnv_snoc, netEnv_snoc]
      show Function.update (Function.update (Function.update _ no.y.value.id _) l1.y.value.id _) ac.y.value.id _ _ = _
      rw [Function.update_of_ne (by omega), Function.update_of_ne (by omega), Function.update_of_ne (by omega)]
    simp only
    rw [k1, add_comm]
    congr 1
    rw [v3, v2, v1]
    rw [s3, s1]
    cases side
    · simp only [linearOut, headDims, genK, lastOf, mixMlp, mixChannels, mixSize, linearY, exceptLast, List.length_cons, List.length_nil, List.length_append, List.length_take, opCat, Option.elim, add_zero, zero_add, Nat.reduceAdd,
        Nat.add_one_sub_one, List.take_succ_cons, List.take_zero, List.drop_succ_cons, List.drop_zero, List.cons_append, List.nil_append, sum_box1, List.append_nil, Nat.reduceLeDiff, inf_of_le_left]
    · simp only [linearOut, headDims, genK, lastOf, mixMlp, mixTokens, mixSize, linearY, exceptLast, List.length_cons, List.length_nil, List.length_append, List.length_take, opCat, Option.elim, add_zero, zero_add, Nat.reduceAdd,
        Nat.add_one_sub_one, List.take_succ_cons, List.take_zero, List.drop_succ_cons, List.drop_zero, List.cons_append, List.nil_append, sum_box1, List.append_nil, Nat.reduceLeDiff, inf_of_le_left]

/-- What is needed of a layer besides its parts. -/
structure MixOk (invalidate : Bool) (l : MixLayer ℝ) : Prop where
  back : ∀ given, Ordered given (l.nets invalidate) → (netIds given (l.nets invalidate)).Nodup → SegBack l.overwrites given (l.nets invalidate) (l.backwardAsync invalidate)
  forward : l.forwardAsync = netForward (l.nets invalidate)

/-- A mixer layer. -/
theorem mix_layer (h : NGrown inputs nets params next) (invalidate : Bool) {x : Moments} (hxm : x ∈ inputs ++ nets.map NetLayer.out) (ux : x.Usable) (rx : x.gradRequired = true) {n b e tb : Nat}
    (hs : x.value.shape = [n, b, e]) (ht : x.value.basetile = [n, tb, e]) :
    ∃ (l : MixerLayer ℝ) (ts : List (Task1 ℝ)) (p : MixBlockP Moments), MixerLayer.generate x next = .ok (l, ts) ∧ l.parameters = p.toList ∧
      NGrown inputs (nets ++ (MixLayer.mixer l).nets invalidate) (params ++ p.toList) (next + 48) ∧ MixOk invalidate (.mixer l) ∧
      l.y.Usable ∧ l.y.gradRequired = true ∧ l.y.value.shape = [n, b, e] ∧ l.y.value.basetile = [n, tb, e] ∧ p.Shapes n e ∧ LnInits ts [(p.g1, p.b1), (p.g2, p.b2)] ∧
      ((MixLayer.mixer l).nets invalidate).map NetLayer.out = l.temporaries ∧ l.y ∈ l.temporaries ∧
      ∀ env, Eq3 (netEnv env (nets ++ (MixLayer.mixer l).nets invalidate) l.y.value.id) (mixBlockOut n e (netEnv env nets x.value.id) (p.map fun m => env m.value.id)) := by
  obtain ⟨no1, ts1, m1, g1, x1, g1', p1, y1, h1, b1, f1, u1, r1, s1, t1, ⟨z11, z12, z13, z14⟩, k1, v1⟩ := mix_half h invalidate hxm ux rx hs ht .R
  obtain ⟨no2, ts2, m2, g2, x2, g2', p2, y2, h2, b2, f2, u2, r2, s2, t2, ⟨z21, z22, z23, z24⟩, k2, v2⟩ := mix_half h1 invalidate (x := m1.y) (by rw [y1]; simp [mixHalf, NetLayer.withResidual, Linear.toNet]) u1 r1 s1 t1 .L
  have hnets : (MixLayer.mixer ⟨x, m2.y, no1, no2, m1, m2⟩).nets invalidate = mixHalf invalidate no1 m1 ++ mixHalf invalidate no2 m2 := rfl
  have happ : nets ++ (MixLayer.mixer ⟨x, m2.y, no1, no2, m1, m2⟩).nets invalidate = nets ++ mixHalf invalidate no1 m1 ++ mixHalf invalidate no2 m2 := by
    rw [hnets, List.append_assoc]
  refine ⟨⟨x, m2.y, no1, no2, m1, m2⟩, ts1 ++ ts2, ⟨no1.gamma, no1.beta, m1.linear1.w, m1.linear2.w, no2.gamma, no2.beta, m2.linear1.w, m2.linear2.w⟩, ?_, ?_, ?_, ⟨?_, ?_⟩, u2, r2, s2, t2, ?_,
    k1.append k2, ?_, ?_, ?_⟩
  · have hlit : (FP.lit (1 / 100000) : ℝ) = mixEps := by
      show ((1 / 100000 : ℚ) : ℝ) = mixEps
      unfold mixEps
      push_cast
      norm_num
    rw [MixerLayer.generate, hlit]
    refine (congrArg (· >>= _) g1).trans ?_
    rw [M.bind_ok]
    refine (congrArg (· >>= _) g1').trans ?_
    rw [M.bind_ok]
    refine (congrArg (· >>= _) g2).trans ?_
    rw [M.bind_ok]
    refine (congrArg (· >>= _) g2').trans ?_
    rw [M.bind_ok]
  · simp [MixerLayer.parameters, p1, p2, MixBlockP.toList]
  · rw [happ]
    have : params ++ [no1.gamma, no1.beta, m1.linear1.w, m1.linear2.w] ++ [no2.gamma, no2.beta, m2.linear1.w, m2.linear2.w] =
        params ++ (⟨no1.gamma, no1.beta, m1.linear1.w, m1.linear2.w, no2.gamma, no2.beta, m2.linear1.w, m2.linear2.w⟩ : MixBlockP Moments).toList := by simp [MixBlockP.toList]
    rw [← this]
    exact h2
  · intro given ho hn
    rw [hnets] at ho hn ⊢
    obtain ⟨ho1, ho2⟩ := (Ordered_append _ _ _).1 ho
    have key := SegBack.append (b1 := seqAsync [m1.backwardAsync, no1.backwardAsync invalidate, addAsync 1 m1.linear2.y.grad 1 x.grad])
      (b2 := seqAsync [m2.backwardAsync, no2.backwardAsync invalidate, addAsync 1 m2.linear2.y.grad 1 m1.y.grad]) (fun l hl => h2.correct l ?_) ho hn
      (b1 given ho1 (netIds_append_left hn)) (b2 _ ho2 (netIds_append_right hn).1) (by simp)
    · refine Eq.mp ?_ key
      congr 1
      exact (seqAsync_append [m2.backwardAsync, no2.backwardAsync invalidate, addAsync 1 m2.linear2.y.grad 1 m1.y.grad]
        [m1.backwardAsync, no1.backwardAsync invalidate, addAsync 1 m1.linear2.y.grad 1 x.grad]).symm
    · simp only [List.mem_append] at hl ⊢
      tauto
  · show seqAsync ([no1.forwardAsync, m1.forwardAsync, addAsync 1 x.value 1 m1.y.value] ++ [no2.forwardAsync, m2.forwardAsync, addAsync 1 no2.x.value 1 m2.y.value]) = _
    rw [seqAsync_append, hnets, x2, ← f1, ← f2]
    unfold netForward
    rw [List.map_append, seqAsync_append]
  · simp [MixBlockP.Shapes, MixBlockP.toList, z11, z12, z13, z14, z21, z22, z23, z24]
  · rw [hnets]
    rfl
  · simp [MixerLayer.temporaries, MixerMlp.temporaries, y2]
  · intro env
    rw [happ]
    intro i j k
    show netEnv env _ m2.y.value.id [i, j, k] = _
    rw [v2 env i j k]
    have hk := v1 env
    have := mixChannels_eq3 (n := e) (u1 := env m2.linear1.w.value.id) (u2 := env m2.linear2.w.value.id)
      (lnOut_eq3 (l := e) (eps := mixEps) (γ := env no2.gamma.value.id) (β := env no2.beta.value.id) hk) i j k
    exact congrArg₂ (· + ·) (hk i j k) this

/-- The state of the constructor, before the last two layers. -/
structure MixGrown (invalidate : Bool) (x0 : Moments) (b : MixBuilder ℝ) : Prop where
  net : NGrown [x0] (b.layers.flatMap (MixLayer.nets invalidate)) (b.layers.flatMap MixLayer.parameters) b.next
  ok : ∀ l ∈ b.layers, MixOk invalidate l ∧ l.overwrites = []
  acts : ∀ m ∈ b.acts, m = x0 ∨ m ∈ (b.layers.flatMap (MixLayer.nets invalidate)).map NetLayer.out
  tmps : ∀ l ∈ b.layers, ∀ m ∈ l.temporaries, m ∈ (b.layers.flatMap (MixLayer.nets invalidate)).map NetLayer.out
  outs : ∀ m ∈ (b.layers.flatMap (MixLayer.nets invalidate)).map NetLayer.out, m ∈ b.acts ∨ ∃ l ∈ b.layers, m ∈ l.temporaries
  first : x0 ∈ b.acts

theorem mixers_grown {invalidate : Bool} {x0 : Moments} {n b e tb : Nat} (k : Nat) : ∀ (B : MixBuilder ℝ), MixGrown invalidate x0 B → ∀ (A : List Moments) (x : Moments), B.acts = A ++ [x] →
    x ∈ (B.layers.flatMap (MixLayer.nets invalidate)).map NetLayer.out → x.Usable → x.gradRequired = true → x.value.shape = [n, b, e] → x.value.basetile = [n, tb, e] →
    ∃ (B' : MixBuilder ℝ) (ps : List (MixBlockP Moments)) (A' : List Moments) (y : Moments) (ls : List (MixLayer ℝ)) (ts : List (Task1 ℝ)), MixBuilder.mixers k B = .ok B' ∧ MixGrown invalidate x0 B' ∧
      B'.layers = B.layers ++ ls ∧ ls.flatMap MixLayer.parameters = ps.flatMap MixBlockP.toList ∧ ps.length = k ∧ (∀ p ∈ ps, p.Shapes n e) ∧ B'.next = B.next + 48 * k ∧ B'.tasks = B.tasks ++ ts ∧
      LnInits ts (ps.flatMap MixBlockP.norms) ∧ B'.acts = A' ++ [y] ∧ y ∈ (B'.layers.flatMap (MixLayer.nets invalidate)).map NetLayer.out ∧ y.Usable ∧ y.gradRequired = true ∧
      y.value.shape = [n, b, e] ∧ y.value.basetile = [n, tb, e] ∧
      ∀ env, Eq3 (netEnv env (B'.layers.flatMap (MixLayer.nets invalidate)) y.value.id) ((ps.map (MixBlockP.map fun m => env m.value.id)).foldl (mixBlockOut n e)
        (netEnv env (B.layers.flatMap (MixLayer.nets invalidate)) x.value.id)) := by
  induction k with
  | zero =>
    intro B h A x ha hx ux rx hs ht
    exact ⟨B, [], A, x, [], [], rfl, h, by simp, by simp, rfl, by simp, by simp, by simp, .nil, ha, hx, ux, rx, hs, ht, fun env i j k => rfl⟩
  | succ k ih =>
    intro B h A x ha hx ux rx hs ht
    obtain ⟨l, ts, p, g, hp, hn, hok, uy, ry, sy, ty, hsh, hi, ho, hy, hv⟩ := mix_layer h.net invalidate (List.mem_append_right _ hx) ux rx hs ht
    have hB : B.mixer = .ok ⟨B.acts ++ [l.y], B.layers ++ [.mixer l], B.next + 48, B.tasks ++ ts⟩ := by
      have hl : B.last = .ok x := by rw [MixBuilder.last, ha]; simp
      rw [MixBuilder.mixer, hl, M.bind_ok, g, M.bind_ok]
    have hnets : (B.layers ++ [MixLayer.mixer l]).flatMap (MixLayer.nets invalidate) = B.layers.flatMap (MixLayer.nets invalidate) ++ (MixLayer.mixer l).nets invalidate := by simp
    have hmem : ∀ m ∈ l.temporaries, m ∈ ((B.layers ++ [MixLayer.mixer l]).flatMap (MixLayer.nets invalidate)).map NetLayer.out := by
      intro m hm
      rw [hnets, List.map_append, ho]
      exact List.mem_append_right _ hm
    have hg : MixGrown invalidate x0 ⟨B.acts ++ [l.y], B.layers ++ [.mixer l], B.next + 48, B.tasks ++ ts⟩ := by
      refine ⟨?_, ?_, ?_, ?_, ?_, ?_⟩
      · show NGrown [x0] ((B.layers ++ [MixLayer.mixer l]).flatMap _) ((B.layers ++ [MixLayer.mixer l]).flatMap MixLayer.parameters) (B.next + 48)
        rw [hnets]
        have : (B.layers ++ [MixLayer.mixer l]).flatMap MixLayer.parameters = B.layers.flatMap MixLayer.parameters ++ p.toList := by simp [MixLayer.parameters, hp]
        rw [this]
        exact hn
      · intro l' hl'
        rcases List.mem_append.1 hl' with hl' | hl'
        · exact h.ok l' hl'
        · obtain rfl := List.mem_singleton.1 hl'
          exact ⟨hok, rfl⟩
      · intro m hm
        rcases List.mem_append.1 hm with hm | hm
        · refine (h.acts m hm).imp id fun h => ?_
          rw [hnets, List.map_append]
          exact List.mem_append_left _ h
        · obtain rfl := List.mem_singleton.1 hm
          exact .inr (hmem _ hy)
      · intro l' hl' m hm
        rcases List.mem_append.1 hl' with hl' | hl'
        · rw [hnets, List.map_append]
          exact List.mem_append_left _ (h.tmps l' hl' m hm)
        · obtain rfl := List.mem_singleton.1 hl'
          exact hmem m hm
      · intro m hm
        change m ∈ ((B.layers ++ [MixLayer.mixer l]).flatMap (MixLayer.nets invalidate)).map NetLayer.out at hm
        rw [hnets, List.map_append, ho] at hm
        rcases List.mem_append.1 hm with hm | hm
        · rcases h.outs m hm with h | ⟨l', hl', h⟩
          · exact .inl (List.mem_append_left _ h)
          · exact .inr ⟨l', List.mem_append_left _ hl', h⟩
        · exact .inr ⟨.mixer l, by simp, hm⟩
      · exact List.mem_append_left _ h.first
    obtain ⟨B', ps, A', y, ls, ts', e1, e2, e3, e4, e5, e6, e7, e8, e9, e10, e11, e12, e13, e14, e15, e16⟩ := ih _ hg B.acts l.y rfl (hmem _ hy) uy ry sy ty
    refine ⟨B', p :: ps, A', y, .mixer l :: ls, ts ++ ts', ?_, e2, ?_, ?_, by simp [e5], ?_, ?_, ?_, ?_, e10, e11, e12, e13, e14, e15, ?_⟩
    · rw [MixBuilder.mixers, hB, M.bind_ok, e1]
    · rw [e3]; simp
    · simp only [List.flatMap_cons, e4]
      simp [MixLayer.parameters, hp]
    · intro q hq
      rcases List.mem_cons.1 hq with rfl | hq
      · exact hsh
      · exact e6 q hq
    · rw [e7]; ring
    · rw [e8, List.append_assoc]
    · rw [List.flatMap_cons]
      exact LnInits.append hi e9
    · intro env
      rw [List.map_cons, List.foldl_cons]
      have hb := mixBlocks_eq3 (n := n) (E := e) (ps.map (MixBlockP.map fun m => env m.value.id)) (hv env)
      intro i j k
      rw [e16 env i j k]
      rw [hnets]
      exact hb i j k

end NNTile
