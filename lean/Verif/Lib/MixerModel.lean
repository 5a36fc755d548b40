import Verif.Lib.MixerBuild
import Verif.Props.C36
/-!
# `MlpMixer` as a network
-/
namespace NNTile
open Finset
variable {inputs params : List Moments} {nets : List NetLayer} {next : Nat} {invalidate : Bool}

/-- Backward propagation of all layers. -/
theorem mix_segBack (ls : List (MixLayer ℝ)) : ∀ given : List Moments, (∀ l ∈ ls, MixOk invalidate l) → (∀ l ∈ ls.flatMap (MixLayer.nets invalidate), l.Correct) →
    Ordered given (ls.flatMap (MixLayer.nets invalidate)) → (netIds given (ls.flatMap (MixLayer.nets invalidate))).Nodup →
    ls.Pairwise (fun l l' => ∀ T ∈ l.overwrites, T.id ∉ bwdIds (l'.nets invalidate)) →
    SegBack (ls.flatMap MixLayer.overwrites) given (ls.flatMap (MixLayer.nets invalidate)) (seqAsync (ls.reverse.map (MixLayer.backwardAsync invalidate))) := by
  induction ls with
  | nil =>
    intro given _ _ ho hn _
    exact segBack_net (ls := []) (by simp) ho hn
  | cons l ls ih =>
    intro given hok hc ho hn hp
    rw [List.flatMap_cons] at hc ho hn
    rw [List.flatMap_cons, List.flatMap_cons, List.reverse_cons, List.map_append, List.map_cons, List.map_nil, seqAsync_append, seqAsync_one]
    obtain ⟨ho1, ho2⟩ := (Ordered_append _ _ _).1 ho
    rw [List.pairwise_cons] at hp
    refine SegBack.append hc ho hn ((hok l (by simp)).back given ho1 (netIds_append_left hn)) (ih _ (fun l' hl' => hok l' (by simp [hl'])) (fun n hn => hc n (List.mem_append_right _ hn)) ho2
      (netIds_append_right hn).1 hp.2) ?_
    intro T hT hi
    obtain ⟨n, hn1, hn2⟩ := List.mem_flatMap.1 hi
    obtain ⟨l', hl', hn3⟩ := List.mem_flatMap.1 hn1
    exact hp.1 l' hl' T hT (List.mem_flatMap.2 ⟨n, hn3, hn2⟩)

theorem mix_forward (ls : List (MixLayer ℝ)) (hok : ∀ l ∈ ls, MixOk invalidate l) : seqAsync (ls.map MixLayer.forwardAsync) = netForward (ls.flatMap (MixLayer.nets invalidate)) := by
  induction ls with
  | nil => rfl
  | cons l ls ih =>
    rw [List.map_cons, seqAsync_cons, ih fun l' hl' => hok l' (by simp [hl']), (hok l (by simp)).forward]
    unfold netForward
    rw [List.flatMap_cons, List.map_append, seqAsync_append]

theorem mixOk_net {l : MixLayer ℝ} {n : NetLayer} (hc : n.Correct) (hn : l.nets invalidate = [n]) (hw : l.overwrites = []) (hf : l.forwardAsync = n.forward)
    (hb : l.backwardAsync invalidate = n.backward) : MixOk invalidate l := by
  constructor
  · intro given ho hd
    rw [hn] at ho hd
    rw [hn, hw, hb]
    have := segBack_net (ls := [n]) (by simp [hc]) ho hd
    unfold netBackward at this
    rwa [List.reverse_singleton, List.map_cons, List.map_nil, seqAsync_one] at this
  · rw [hn, hf]
    unfold netForward
    rw [List.map_cons, List.map_nil, seqAsync_one]

/-- The tensors of a model. -/
structure MixModel (invalidate : Bool) (x0 : Moments) (m : MlpMixer ℝ) (p : MixP Moments) (out : Moments) (next : Nat) : Prop where
  net : NGrown [x0] (m.net invalidate) p.toList next
  params : m.parameters = p.toList
  last : m.activations.getLast? = some out
  output : out ∈ (m.net invalidate).map NetLayer.out
  forward : m.forwardAsync = netForward (m.net invalidate)
  clear : ∃ (g : GapLayer), g.x ∈ (m.net invalidate).map NetLayer.out ∧ g.x ≠ out ∧ g.toNet ∈ m.net invalidate ∧
    SegBack [g.x.grad] ([x0] ++ p.toList) (m.net invalidate) (m.backwardAsync invalidate) ∧
    (∀ q ∈ m.activations, q = x0 ∨ q ∈ (m.net invalidate).map NetLayer.out) ∧ x0 ∈ m.activations ∧
    (∀ l ∈ m.layers, ∀ q ∈ l.temporaries, q ∈ (m.net invalidate).map NetLayer.out ∨ q = g.yT) ∧
    ∀ q ∈ (m.net invalidate).map NetLayer.out, q ∈ m.activations ∨ ∃ l ∈ m.layers, q ∈ l.temporaries

theorem mlpMixer_grown {x : Moments} (ux : x.Usable) (hid : x.ids.Nodup) (hlt : ∀ i ∈ x.ids, i < next) {n b q tb tq : Nat} (hs : x.value.shape = [n, b, q]) (ht : x.value.basetile = [n, tb, tq])
    {e c : Nat} (he : 0 < e) (hc : 0 < c) {k : Nat} (hk : 0 < k) :
    ∃ (m : MlpMixer ℝ) (ts : List (Task1 ℝ)) (p : MixP Moments) (out : Moments), mlpMixer x e k c next = .ok (m, ts, next + 48 * k + 16) ∧ MixModel invalidate x m p out (next + 48 * k + 16) ∧
      p.blocks.length = k ∧ p.Shapes n q e c ∧ out.value.shape = [c, b] ∧ out.value.basetile = [c, tb] ∧ LnInits ts p.norms ∧
      ∀ env i j, netEnv env (m.net invalidate) out.value.id [i, j] = mixOut n q e (p.map fun m => env m.value.id) (env x.value.id) [i, j] := by
  have h0 : NGrown [x] [] [] next := NGrown.init (by simpa using hid) (by simpa using hlt)
  obtain ⟨l, g1, x1, b1, c1, h1, u1, r1, f1, s1, t1, z1, v1⟩ := h0.linear (x := x) (by simp) ux .L (by simp [Tensor.ndim, hs]) he he none (by simp)
  simp only [NetLayer.resOpt, List.nil_append] at h1 v1
  rw [hs] at s1 z1
  rw [ht] at t1
  replace s1 : l.y.value.shape = [n, b, e] := s1
  replace t1 : l.y.value.basetile = [n, tb, e] := t1
  replace z1 : l.w.value.shape = [q, e] := z1
  have hB0 : MixGrown invalidate x ⟨[x, l.y], [.linear l], next + 6, []⟩ := by
    refine ⟨?_, ?_, ?_, ?_, ?_, by simp⟩
    · simpa [MixLayer.nets, MixLayer.parameters, b1] using h1
    · intro l' hl'
      obtain rfl := List.mem_singleton.1 hl'
      exact ⟨mixOk_net c1 rfl rfl rfl rfl, rfl⟩
    · simp [MixLayer.nets, Linear.toNet]
    · simp [MixLayer.temporaries]
    · simp [MixLayer.nets, Linear.toNet]
  have hnets0 : [MixLayer.linear l].flatMap (MixLayer.nets invalidate) = [l.toNet] := by simp [MixLayer.nets]
  obtain ⟨B, ps, A, y, ls, ts, e1, hB, e3, e4, e5, e6, e7, e8, e9, e10, e11, uy, ry, sy, ty, vy⟩ := mixers_grown (n := n) (b := b) (e := e) (tb := tb) k _ hB0 [x] l.y rfl
    (by simp [hnets0, Linear.toNet]) u1 r1 s1 t1
  simp only at e3 e7 e8 vy
  obtain ⟨g, g2, x2, fit, c2, i2, h2, u2, r2, f2, s2, t2, v2⟩ := hB.net.gap (List.mem_append_right _ e11) uy ry sy ty
  obtain ⟨w, g3, x3, b3, c3, h3, u3, r3, f3, s3, t3, z3, v3⟩ := h2.linear (x := g.y) (by simp [GapLayer.toNet]) u2 .R (by simp [Tensor.ndim, s2]) hc hc none (by simp)
  simp only [NetLayer.resOpt] at h3 v3
  rw [s2] at s3 z3
  rw [t2] at t3
  replace s3 : w.y.value.shape = [c, b] := s3
  replace t3 : w.y.value.basetile = [c, tb] := t3
  replace z3 : w.w.value.shape = [c, e] := z3
  set m : MlpMixer ℝ := ⟨B.acts ++ [g.y] ++ [w.y], B.layers ++ [.gap g] ++ [.linear w]⟩ with hm
  have hnet : m.net invalidate = B.layers.flatMap (MixLayer.nets invalidate) ++ [g.toNet] ++ [w.toNet] := by
    simp [m, MlpMixer.net, MixLayer.nets]
  have hpar : m.parameters = (⟨l.w, ps, w.w⟩ : MixP Moments).toList := by
    simp [m, MlpMixer.parameters, MixLayer.parameters, e3, e4, MixP.toList, b1, b3]
  have hpar' : B.layers.flatMap MixLayer.parameters ++ [w.w] = (⟨l.w, ps, w.w⟩ : MixP Moments).toList := by
    simp [MixLayer.parameters, e3, e4, MixP.toList, b1]
  have hnext : B.next + 4 + 6 = next + 48 * k + 16 := by rw [e7]; omega
  have hgrown : NGrown [x] (m.net invalidate) (⟨l.w, ps, w.w⟩ : MixP Moments).toList (next + 48 * k + 16) := by
    rw [hnet, ← hpar', ← hnext]
    exact h3
  have hgok : MixOk invalidate (.gap g) := by
    constructor
    · intro given ho hn
      exact gap_segBack fit ho hn i2
    · show g.forwardAsync = netForward [g.toNet]
      unfold netForward
      rw [List.map_cons, List.map_nil, seqAsync_one]
      rfl
  have hok : ∀ l ∈ m.layers, MixOk invalidate l := by
    intro l' hl'
    simp only [m, List.mem_append, List.mem_singleton] at hl'
    rcases hl' with (hl' | rfl) | rfl
    · exact (hB.ok l' hl').1
    · exact hgok
    · exact mixOk_net c3 rfl rfl rfl rfl
  have how : ∀ l ∈ B.layers, MixLayer.overwrites l = [] := fun l hl => (hB.ok l hl).2
  have hfo : m.layers.flatMap MixLayer.overwrites = [g.x.grad] := by
    have : B.layers.flatMap MixLayer.overwrites = [] := List.flatMap_eq_nil_iff.2 how
    simp [m, this, MixLayer.overwrites]
  have hyo := e11
  have hgx : g.x ∈ (m.net invalidate).map NetLayer.out := by
    rw [hnet, x2]
    simp only [List.map_append, List.mem_append]
    exact .inl (.inl hyo)
  have hgne : g.x ≠ w.y := by
    rw [x2]
    intro e
    rw [e, s3] at sy
    simp at sy
  have hpw : m.layers.Pairwise (fun l l' => ∀ T ∈ l.overwrites, T.id ∉ bwdIds (l'.nets invalidate)) := by
    show (B.layers ++ [MixLayer.gap g] ++ [MixLayer.linear w]).Pairwise _
    rw [List.pairwise_append, List.pairwise_append]
    refine ⟨⟨?_, by simp, ?_⟩, by simp, ?_⟩
    · refine List.pairwise_of_forall_mem_list fun l' hl' _ _ T hT => ?_
      rw [how l' hl'] at hT
      cases hT
    · intro l' hl' _ _ T hT
      rw [how l' hl'] at hT
      cases hT
    · intro l' hl' l'' hl'' T hT
      rcases List.mem_append.1 hl' with h | h
      · rw [how l' h] at hT
        cases hT
      · obtain rfl := List.mem_singleton.1 h
        obtain rfl := List.mem_singleton.1 hl''
        obtain rfl := List.mem_singleton.1 hT
        have hgi : g.x.grad.id ∈ y.ids := by rw [x2]; simp [Moments.ids, Moments.gradIds, ry]
        have hlt1 : g.x.grad.id < B.next := hB.net.lt (List.mem_append_right _ e11) _ hgi
        show g.x.grad.id ∉ ([w.toNet].flatMap _)
        intro hi
        simp only [List.flatMap_cons, List.flatMap_nil, List.append_nil, List.mem_append] at hi
        rcases hi with hi | hi
        · have hins : w.toNet.ins = [g.y, w.w] := by
            show w.x :: w.w :: w.b.toList = _
            rw [b3, x3]; rfl
          rw [hins] at hi
          simp only [List.flatMap_cons, List.flatMap_nil, List.append_nil, List.mem_append] at hi
          have hall := (netIds_allMoments h3.ids).1
          have hy3 : y ∈ [x] ++ (B.layers.flatMap MixLayer.parameters ++ [w.w]) ++ (B.layers.flatMap (MixLayer.nets invalidate) ++ [g.toNet] ++ [w.toNet]).map NetLayer.out := by
            simp only [List.map_append, List.mem_append]
            exact .inr (.inl (.inl hyo))
          rcases hi with hi | hi
          · have := ids_inj hall hy3 (m' := g.y) (by simp [GapLayer.toNet]) hgi (gradIds_subset hi)
            rw [this, s2] at sy
            simp at sy
          · have := ids_inj hall hy3 (m' := w.w) (by simp) hgi (gradIds_subset hi)
            rw [this, z3] at sy
            simp at sy
        · exact absurd hi (by simp [Linear.toNet])
  refine ⟨m, B.tasks, ⟨l.w, ps, w.w⟩, w.y, ?_, ⟨hgrown, hpar, by simp [m], by rw [hnet]; simp [Linear.toNet], ?_, g, hgx, hgne, by rw [hnet]; simp, ?_, ?_, ?_, ?_, ?_⟩, e5, ⟨z1, e6, z3⟩, s3, t3, ?_, ?_⟩
  · have p0 : pyIndex x.value.shape 0 = .ok n := by simp [pyIndex, hs, throwIf, M.bind_ok]
    have p2 : pyIndex x.value.shape 2 = .ok q := by simp [pyIndex, hs, throwIf, M.bind_ok]
    have hl : B.last = .ok y := by rw [MixBuilder.last, e10]; simp
    rw [mlpMixer, throwIf_neg (by omega), M.bind_ok, p0, M.bind_ok, p2, M.bind_ok, g1, M.bind_ok, Int.toNat_natCast, e1, M.bind_ok, hl, M.bind_ok, g2, M.bind_ok, g3, M.bind_ok, hnext]
  · exact mix_forward _ hok
  · rw [← hfo]
    exact mix_segBack m.layers _ hok hgrown.correct hgrown.order hgrown.ids hpw
  · intro q hq
    rw [hnet]
    simp only [m, List.mem_append, List.mem_singleton, List.map_append] at hq ⊢
    rcases hq with (hq | rfl) | rfl
    · exact (hB.acts q hq).imp id fun h => .inl (.inl h)
    · exact .inr (.inl (.inr (by simp [GapLayer.toNet])))
    · exact .inr (.inr (by simp [Linear.toNet]))
  · simp [m, hB.first]
  · intro l' hl' q hq
    rw [hnet]
    simp only [m, List.mem_append, List.mem_singleton] at hl'
    rcases hl' with (hl' | rfl) | rfl
    · simp only [List.map_append, List.mem_append]
      exact .inl (.inl (.inl (hB.tmps l' hl' q hq)))
    · exact .inr (List.mem_singleton.1 hq)
    · cases hq
  · intro q hq
    rw [hnet] at hq
    simp only [List.map_append, List.mem_append] at hq
    rcases hq with (hq | hq) | hq
    · rcases hB.outs q hq with h | ⟨l', hl', h⟩
      · exact .inl (by simp [m, h])
      · exact .inr ⟨l', by simp [m, hl'], h⟩
    · obtain rfl : q = g.y := by simpa [GapLayer.toNet] using hq
      exact .inl (by simp [m])
    · obtain rfl : q = w.y := by simpa [Linear.toNet] using hq
      exact .inl (by simp [m])
  · rw [e8]
    exact e9
  · intro env i j
    rw [hnet, v3]
    simp only [linearOut, headDims, genK, s2, exceptLast, opCat, List.length_cons, List.length_nil, Nat.reduceAdd, Nat.add_one_sub_one, List.take_succ_cons, List.take_zero, List.drop_succ_cons,
      List.drop_zero, List.cons_append, List.nil_append, sum_box1, List.append_nil, Option.elim, add_zero]
    have hp : Eq3 (netEnv env ([MixLayer.linear l].flatMap (MixLayer.nets invalidate)) l.y.value.id) (mixProject q (env l.w.value.id) (env x.value.id)) := by
      intro p b' e'
      rw [hnets0, v1, hs]
      simp only [linearOut, headDims, genK, lastOf, opCat, List.length_cons, List.length_nil, Nat.reduceAdd, Nat.add_one_sub_one, List.take_succ_cons, List.take_zero, List.drop_succ_cons,
        List.drop_zero, List.cons_append, List.nil_append, sum_box1, List.append_nil, Option.elim, add_zero, mixProject]
      rfl
    have hb := mixBlocks_eq3 (n := n) (E := e) (ps.map (MixBlockP.map fun m => env m.value.id)) hp
    show _ = ∑ k ∈ range e, env w.w.value.id [i, k] * ((∑ p ∈ range n, ((ps.map (MixBlockP.map fun m => env m.value.id)).foldl (mixBlockOut n e) (mixProject q (env l.w.value.id) (env x.value.id))) [p, j, k]) / n)
    rw [v2]
    refine sum_congr rfl fun k _ => congrArg (fun z => env w.w.value.id [i, k] * (z / (n : ℝ))) (sum_congr rfl fun p _ => ?_)
    show netEnv env _ y.value.id [p, j, k] = _
    rw [vy env p j k]
    exact hb p j k

end NNTile
