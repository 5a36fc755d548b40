import Verif.Lib.AttnVJP
import Mathlib.Topology.Algebra.Order.Field
/-!
# C47: multi-head attention computes softmax attention, its backward propagation computes the gradients
-/
namespace NNTile
open Finset
noncomputable section

/-- The attention layer, with any tiling, with or without biases and mask, satisfies the contract of a layer (`NetLayer.Correct`): `forward_async` writes `l.F` to the output
whatever the output and temporary tensors contain before, changes nothing else; `backward_async` afterwards adds the product of the transposed Jacobian of `l.F` with the gradient
of the output to the gradients of inputs, weights and biases which are required and changes nothing else. The three inputs may be the same tensor (self-attention). -/
theorem C47_attention {l : Attention ℝ} {z t : AttnDims} (fit : l.Fits z t) (asIdx : ℝ → Int) (invalidate : Bool) (ids : (l.toNet z asIdx invalidate).ids.Nodup) :
    (l.toNet z asIdx invalidate).Correct := by
  obtain ⟨m1, m2, m3, m4, m5, m6, m7, m8, m9, m10, m11, m12⟩ := l.mem_ins
  have hn : (l.ins.map fun m => m.value.id).Nodup := by
    simp only [NetLayer.ids, Attention.toNet] at ids
    rw [List.append_assoc, List.nodup_append] at ids
    exact values_nodup ids.1
  have hb : ∀ env env' : Env, (∀ m ∈ l.ins, env m.value.id = env' m.value.id) → ∀ o : Option Moments, (∀ m, o = some m → m ∈ l.ins) → biasAt o env = biasAt o env' := by
    intro env env' he o ho
    cases o with
    | none => rfl
    | some b => funext I; simp only [biasAt, he b (ho b rfl)]
  have hm : ∀ env env' : Env, (∀ m ∈ l.ins, env m.value.id = env' m.value.id) → maskAt asIdx l.mask env = maskAt asIdx l.mask env' := by
    intro env env' he
    cases e : l.mask with
    | none => rfl
    | some T =>
      funext I
      have := he _ (m12 T e)
      simp only [maskMoments] at this
      simp only [maskAt, this]
  have hQ : ∀ env env' : Env, (∀ m ∈ l.ins, env m.value.id = env' m.value.id) → l.Q z env = l.Q z env' ∧ l.K z env = l.K z env' ∧ l.V z env = l.V z env' ∧
      l.A z asIdx env = l.A z asIdx env' ∧ l.headsOut z asIdx env = l.headsOut z asIdx env' := by
    intro env env' he
    have q : l.Q z env = l.Q z env' := by simp only [Attention.Q, he _ m4, he _ m1, hb env env' he _ m8]
    have k : l.K z env = l.K z env' := by simp only [Attention.K, he _ m5, he _ m2, hb env env' he _ m9]
    have v : l.V z env = l.V z env' := by simp only [Attention.V, he _ m6, he _ m3, hb env env' he _ m10]
    have a : l.A z asIdx env = l.A z asIdx env' := by simp only [Attention.A, q, k, hm env env' he]
    exact ⟨q, k, v, a, by simp only [Attention.headsOut, v, a]⟩
  refine ⟨fit.required _ (by simp [Attention.toNet]), hn, ?_, ?_, fun _ _ _ _ => trivial, ?_, ?_, ?_⟩
  · intro env env' he
    change ∀ m ∈ l.ins, _ at he
    change l.F z asIdx env = l.F z asIdx env'
    simp only [Attention.F, (hQ env env' he).2.2.2.2, he _ m7, hb env env' he _ m11]
  · intro env env' he s hs
    obtain ⟨q, k, v, a, h⟩ := hQ env env' he
    change _ ∧ _ ∧ _ ∧ _ ∧ _ at hs
    change _ ∧ _ ∧ _ ∧ _ ∧ _
    rwa [← q, ← k, ← v, ← a, ← h]
  · intro env s s' ids' hc hT hs
    obtain ⟨h1, h2, h3, h4, h5⟩ := hs
    change ∀ T ∈ l.temps, _ at hT
    refine ⟨hc.holds h1 (hT _ ?_), hc.holds h2 (hT _ ?_), hc.holds h3 (hT _ ?_), hc.holds h4 (hT _ ?_), hc.holds h5 (hT _ ?_)⟩ <;> simp [Attention.temps]
  · intro s env _ hv hr
    exact attn_forward fit ids hv hr
  · intro s env dy g0 _ hv hs hr yr yh hg
    exact (attn_backward fit ids hv hs hr yr yh hg).imp (fun _ h => h) fun s' _ h => ⟨h.1, _, h.2, attn_vjp fit hn asIdx env dy⟩

/-- What `l.F` is, written out: the output at position `j` of element `n` of the batch is the sum over the heads of the output weights times the average of the values over
the positions `i` with weights `exp (score i j) / ∑ exp (score i' j)`, where the score is `⟨k i, q j⟩ / √D`, or `l.val` where the mask does not allow position `i` to be used
at position `j`. -/
theorem C47_meaning (l : Attention ℝ) (z : AttnDims) (asIdx : ℝ → Int) (env : Env) (e j n : Nat) :
    let q := fun d j h => ∑ e ∈ range z.E, env l.wq.value.id [h, d, e] * env l.xq.value.id [e, j, n] + biasAt l.biasQ env [d, h]
    let k := fun d i h => ∑ e ∈ range z.Ek, env l.wk.value.id [h, d, e] * env l.xk.value.id [e, i, n] + biasAt l.biasK env [d, h]
    let v := fun d i h => ∑ e ∈ range z.Ev, env l.wv.value.id [h, d, e] * env l.xv.value.id [e, i, n] + biasAt l.biasV env [d, h]
    let score := fun i j h => if maskAt asIdx l.mask env [i, j] then (∑ d ∈ range z.D, k d i h * q d j h) / √z.D else l.val
    l.F z asIdx env [e, j, n] = ∑ h ∈ range z.H, ∑ d ∈ range z.D, env l.w.value.id [e, h, d] *
      (∑ i ∈ range z.S, v d i h * (Real.exp (score i j h) / ∑ i' ∈ range z.S, Real.exp (score i' j h))) + biasAt l.biasOut env [e] := rfl

/-- The number which the layer puts in place of masked scores is minus infinity (`val` in `attention.py:139-140`). The more negative `val` is, the nearer are the weights to those of
the softmax over the allowed positions only: that is the limit as `val → -∞`, if some position is allowed. -/
theorem C47_mask_limit (S : Nat) (allowed : List Nat → Bool) (s : List Nat → ℝ) {i j n h : Nat} (ha : ∃ i, i < S ∧ allowed [i, j] = true) :
    Filter.Tendsto (fun val => attnWeights S (attnMasked allowed val s) [i, j, n, h]) Filter.atBot
      (nhds (if allowed [i, j] then Real.exp (s [i, j, n, h]) / ∑ i' ∈ (range S).filter (fun i' => allowed [i', j]), Real.exp (s [i', j, n, h]) else 0)) := by
  simp only [attnWeights, attnMasked]
  have hp : 0 < ∑ i' ∈ (range S).filter (fun i' => allowed [i', j]), Real.exp (s [i', j, n, h]) := by
    obtain ⟨i0, h1, h2⟩ := ha
    exact sum_pos (fun _ _ => Real.exp_pos _) ⟨i0, mem_filter.2 ⟨mem_range.2 h1, h2⟩⟩
  have t : ∀ i', Filter.Tendsto (fun val => Real.exp (if allowed [i', j] = true then s [i', j, n, h] else val)) Filter.atBot
      (nhds (if allowed [i', j] then Real.exp (s [i', j, n, h]) else 0)) := by
    intro i'
    split
    · exact tendsto_const_nhds
    · exact Real.tendsto_exp_atBot
  have td := tendsto_finsetSum (range S) fun i' (_ : i' ∈ range S) => t i'
  rw [← sum_filter] at td
  have := (t i).div td hp.ne'
  refine this.congr' (Filter.Eventually.of_forall fun _ => rfl) |>.trans ?_
  split
  · exact le_rfl
  · rw [zero_div]

/-- `Attention.generate_simple` succeeds if the embedding size is a multiple of the number of heads, the three inputs have the same sequence and batch dimensions with the same
tiling and all sizes are positive; the layer it returns fits, all new tensors are well formed with new, different identities (between `next` and `next + 37`). -/
theorem C47_generate {xq xk xv : Moments} {z t : AttnDims} (hE : z.E = z.D * z.H) (ht : t.D = z.D) (hq : xq.Is [z.E, z.S, z.B] [t.E, t.S, t.B])
    (hk : xk.Is [z.Ek, z.S, z.B] [t.Ek, t.S, t.B]) (hv : xv.Is [z.Ev, z.S, z.B] [t.Ev, t.S, t.B])
    (pz : 0 < z.E ∧ 0 < z.Ek ∧ 0 < z.Ev ∧ 0 < z.S ∧ 0 < z.B) (pt : 0 < t.E ∧ 0 < t.Ek ∧ 0 < t.Ev ∧ 0 < t.S ∧ 0 < t.B ∧ 0 < t.H)
    (bias : Bool) (mask : Option Tensor) (hm : ∀ T, mask = some T → T.shape = [z.S, z.S] ∧ T.basetile = [t.S, t.S]) (val : ℝ) (redux : Bool) (next : Nat) :
    ∃ l, Attention.generate xq xk xv z.H t.H next bias mask val redux = .ok l ∧ l.xq = xq ∧ l.xk = xk ∧ l.xv = xv ∧ l.mask = mask ∧ l.val = val ∧ l.Fits z t ∧
      (l.biasQ.isSome = bias ∧ l.biasK.isSome = bias ∧ l.biasV.isSome = bias ∧ l.biasOut.isSome = bias) ∧
      (∀ m ∈ l.params ++ [l.y], m.value.WF ∧ m.grad.shape = m.value.shape ∧ m.grad.basetile = m.value.basetile ∧ m.gradRequired = true) ∧ (∀ T ∈ l.temps, T.WF) ∧
      (let new := l.params.flatMap Moments.ids ++ (l.y.ids ++ l.temps.map Tensor.id); new.Nodup ∧ ∀ i ∈ new, next ≤ i ∧ i < next + 38) := by
  obtain ⟨E, Ek, Ev, S, B, H, D'⟩ := z
  obtain ⟨tE, tEk, tEv, tS, tB, tH, D⟩ := t
  obtain ⟨⟨iq, _, _⟩, gq, rq⟩ := xq
  obtain ⟨⟨ik, _, _⟩, gk, rk⟩ := xk
  obtain ⟨⟨iv, _, _⟩, gv, rv⟩ := xv
  obtain ⟨rfl, rfl, hq⟩ := hq
  obtain ⟨rfl, rfl, hk⟩ := hk
  obtain ⟨rfl, rfl, hv⟩ := hv
  simp only at hE ht hq hk hv pz pt hm ⊢
  subst hE ht
  obtain ⟨z1, z2, z3, z4, z5⟩ := pz
  obtain ⟨t1, t2, t3, t4, t5, t6⟩ := pt
  have zD : 0 < D := Nat.pos_of_ne_zero fun e => by simp [e] at z1
  have zH : 0 < H := Nat.pos_of_ne_zero fun e => by simp [e] at z1
  have hnp : ∀ i (S B : List Nat), Pos S ∧ Pos B ∧ B.length = S.length → newPair i S B = .ok ⟨⟨i, S, B⟩, ⟨i + 1, S, B⟩, true⟩ := by
    intro i S B h
    rw [newPair, newTensor_ok h, M.bind_ok, newTensor_ok h, M.bind_ok]
  have hno : ∀ c i (S B : List Nat), Pos S ∧ Pos B ∧ B.length = S.length → newPairIf c i S B = .ok (if c then some ⟨⟨i, S, B⟩, ⟨i + 1, S, B⟩, true⟩ else none) := by
    intro c i S B h
    rw [newPairIf]
    split
    · rw [hnp _ _ _ h, M.bind_ok]
    · rfl
  have pos1 : ∀ {a : Nat}, 0 < a → Pos [a] := by intro a h; simpa [Pos] using h
  have w2 : ∀ {a b c d : Nat}, 0 < a → 0 < b → 0 < c → 0 < d → Pos [a, b] ∧ Pos [c, d] ∧ [c, d].length = [a, b].length := by
    intro a b c d h1 h2 h3 h4; simp [Pos, *]
  have w3 : ∀ {a b c a' b' c' : Nat}, 0 < a → 0 < b → 0 < c → 0 < a' → 0 < b' → 0 < c' → Pos [a, b, c] ∧ Pos [a', b', c'] ∧ [a', b', c'].length = [a, b, c].length := by
    intros; simp [Pos, *]
  have w4 : ∀ {a b c d a' b' c' d' : Nat}, 0 < a → 0 < b → 0 < c → 0 < d → 0 < a' → 0 < b' → 0 < c' → 0 < d' →
      Pos [a, b, c, d] ∧ Pos [a', b', c', d'] ∧ [a', b', c', d'].length = [a, b, c, d].length := by
    intros; simp [Pos, *]
  have hd : D * H / H = D := Nat.mul_div_cancel _ zH
  have e0 : Attention.generate (α := ℝ) ⟨⟨iq, [D * H, S, B], [tE, tS, tB]⟩, gq, rq⟩ ⟨⟨ik, [Ek, S, B], [tEk, tS, tB]⟩, gk, rk⟩ ⟨⟨iv, [Ev, S, B], [tEv, tS, tB]⟩, gv, rv⟩
      H tH next bias mask val redux = .ok ⟨⟨⟨iq, [D * H, S, B], [tE, tS, tB]⟩, gq, rq⟩, ⟨⟨ik, [Ek, S, B], [tEk, tS, tB]⟩, gk, rk⟩, ⟨⟨iv, [Ev, S, B], [tEv, tS, tB]⟩, gv, rv⟩,
        ⟨⟨next + 36, [D * H, S, B], [tE, tS, tB]⟩, ⟨next + 36 + 1, [D * H, S, B], [tE, tS, tB]⟩, true⟩,
        ⟨⟨next, [H, D, D * H], [tH, D, tE]⟩, ⟨next + 1, [H, D, D * H], [tH, D, tE]⟩, true⟩,
        ⟨⟨next + 4, [H, D, Ek], [tH, D, tEk]⟩, ⟨next + 4 + 1, [H, D, Ek], [tH, D, tEk]⟩, true⟩,
        ⟨⟨next + 8, [H, D, Ev], [tH, D, tEv]⟩, ⟨next + 8 + 1, [H, D, Ev], [tH, D, tEv]⟩, true⟩,
        ⟨⟨next + 12, [D * H, H, D], [tE, tH, D]⟩, ⟨next + 12 + 1, [D * H, H, D], [tE, tH, D]⟩, true⟩,
        ⟨⟨next + 14, [H, D, S, B], [tH, D, tS, tB]⟩, ⟨next + 14 + 1, [H, D, S, B], [tH, D, tS, tB]⟩, true⟩,
        ⟨⟨next + 16, [D, S, B, H], [D, tS, tB, tH]⟩, ⟨next + 16 + 1, [D, S, B, H], [D, tS, tB, tH]⟩, true⟩,
        ⟨⟨next + 18, [H, D, S, B], [tH, D, tS, tB]⟩, ⟨next + 18 + 1, [H, D, S, B], [tH, D, tS, tB]⟩, true⟩,
        ⟨⟨next + 20, [D, S, B, H], [D, tS, tB, tH]⟩, ⟨next + 20 + 1, [D, S, B, H], [D, tS, tB, tH]⟩, true⟩,
        ⟨⟨next + 22, [H, D, S, B], [tH, D, tS, tB]⟩, ⟨next + 22 + 1, [H, D, S, B], [tH, D, tS, tB]⟩, true⟩,
        ⟨⟨next + 24, [D, S, B, H], [D, tS, tB, tH]⟩, ⟨next + 24 + 1, [D, S, B, H], [D, tS, tB, tH]⟩, true⟩,
        ⟨⟨next + 26, [S, S, B, H], [tS, tS, tB, tH]⟩, ⟨next + 26 + 1, [S, S, B, H], [tS, tS, tB, tH]⟩, true⟩,
        ⟨next + 28, [2, S, B, H], [2, tS, tB, tH]⟩, ⟨next + 29, [S, B, H], [tS, tB, tH]⟩,
        ⟨⟨next + 30, [D, S, B, H], [D, tS, tB, tH]⟩, ⟨next + 30 + 1, [D, S, B, H], [D, tS, tB, tH]⟩, true⟩,
        ⟨⟨next + 32, [H, D, S, B], [tH, D, tS, tB]⟩, ⟨next + 32 + 1, [H, D, S, B], [tH, D, tS, tB]⟩, true⟩,
        if bias then some ⟨⟨next + 2, [D, H], [D, tH]⟩, ⟨next + 2 + 1, [D, H], [D, tH]⟩, true⟩ else none,
        if bias then some ⟨⟨next + 6, [D, H], [D, tH]⟩, ⟨next + 6 + 1, [D, H], [D, tH]⟩, true⟩ else none,
        if bias then some ⟨⟨next + 10, [D, H], [D, tH]⟩, ⟨next + 10 + 1, [D, H], [D, tH]⟩, true⟩ else none,
        if bias then some ⟨⟨next + 34, [D * H], [tE]⟩, ⟨next + 34 + 1, [D * H], [tE]⟩, true⟩ else none, H, D, mask, val, redux⟩ := by
    unfold Attention.generate
    rw [throwIf_neg (by simp), M.bind_ok]
    have g0 : ∀ a b c : Nat, [a, b, c].getD 0 0 = a ∧ [a, b, c].getD 1 0 = b ∧ [a, b, c].getD 2 0 = c := fun _ _ _ => ⟨rfl, rfl, rfl⟩
    simp only [g0]
    rw [throwIf_neg zH.ne', M.bind_ok, hd, throwIf_neg (by simp), M.bind_ok]
    have p0 : ∀ a (L : List Nat), pyIndex (a :: L) 0 = .ok a := fun a L => by simp [pyIndex, throwIf]; rfl
    have p1 : ∀ a (L : List Nat), pyDrop (a :: L) 1 = L := fun a L => by simp [pyDrop]
    simp only [p0, p1, M.bind_ok, ne_eq, not_true_eq_false]
    simp only [throwIf_neg (not_false), M.bind_ok]
    simp only [hnp _ _ _ (w3 zH zD z1 t6 zD t1), hno _ _ _ _ (w2 zD zH zD t6), hnp _ _ _ (w3 zH zD z2 t6 zD t2), hnp _ _ _ (w3 zH zD z3 t6 zD t3),
      hnp _ _ _ (w3 z1 zH zD t1 t6 zD), hnp _ _ _ (w4 zH zD z4 z5 t6 zD t4 t5), hnp _ _ _ (w4 zD z4 z5 zH zD t4 t5 t6), hnp _ _ _ (w4 z4 z4 z5 zH t4 t4 t5 t6),
      newTensor_ok (w4 (Nat.succ_pos 1) z4 z5 zH (Nat.succ_pos 1) t4 t5 t6), newTensor_ok (w3 z4 z5 zH t4 t5 t6), hno _ _ _ _ (⟨pos1 z1, pos1 t1, rfl⟩),
      hnp _ _ _ (w3 z1 z4 z5 t1 t4 t5), M.bind_ok, Attention.init, p0, hd]
    rw [throwIf_neg zH.ne', M.bind_ok, throwIf_neg (by simp), M.bind_ok]
  refine ⟨_, e0, rfl, rfl, rfl, rfl, rfl, ?_, ?_, ?_, ?_, ?_⟩
  · refine ⟨⟨rfl, rfl, hq⟩, ⟨rfl, rfl, hk⟩, ⟨rfl, rfl, hv⟩, ⟨rfl, rfl, fun _ => ⟨rfl, rfl⟩⟩, ⟨rfl, rfl, fun _ => ⟨rfl, rfl⟩⟩, ⟨rfl, rfl, fun _ => ⟨rfl, rfl⟩⟩,
      ⟨rfl, rfl, fun _ => ⟨rfl, rfl⟩⟩, ⟨rfl, rfl, fun _ => ⟨rfl, rfl⟩⟩, ?_, ?_, ⟨rfl, rfl, fun _ => ⟨rfl, rfl⟩⟩, ⟨rfl, rfl⟩, ⟨rfl, rfl⟩, ?_, ?_, hm, rfl, ?_⟩
    · simp [Moments.Is]
    · simp [Moments.Is]
    · cases bias <;> simp [Moments.Is]
    · cases bias <;> simp [Moments.Is]
    · simp
  · cases bias <;> simp
  · have q1 := w3 zH zD z1 t6 zD t1
    have q2 := w2 zD zH zD t6
    have q3 := w3 zH zD z2 t6 zD t2
    have q4 := w3 zH zD z3 t6 zD t3
    have q5 := w3 z1 zH zD t1 t6 zD
    have q6 : Pos [D * H] ∧ Pos [tE] ∧ [tE].length = [D * H].length := ⟨pos1 z1, pos1 t1, rfl⟩
    have q7 := w3 z1 z4 z5 t1 t4 t5
    cases bias
    · simp only [Attention.params, Tensor.WF, Bool.false_eq_true, if_false, List.filterMap_cons, List.filterMap_nil, id_eq, List.cons_append, List.nil_append, List.forall_mem_cons,
        q1, q2, q3, q4, q5, q7]
      simp
    · simp only [Attention.params, Tensor.WF, if_true, List.filterMap_cons, List.filterMap_nil, id_eq, List.cons_append, List.nil_append, List.forall_mem_cons,
        q1, q2, q3, q4, q5, q6, q7]
      simp
  · have q1 := w4 zH zD z4 z5 t6 zD t4 t5
    have q2 := w4 zD z4 z5 zH zD t4 t5 t6
    have q3 := w4 z4 z4 z5 zH t4 t4 t5 t6
    have q4 := w4 (Nat.succ_pos 1) z4 z5 zH (Nat.succ_pos 1) t4 t5 t6
    have q5 := w3 z4 z5 zH t4 t5 t6
    simp only [Attention.temps, List.flatMap_cons, List.flatMap_nil, List.cons_append, List.nil_append, List.forall_mem_cons, Tensor.WF, q1, q2, q3, q4, q5]
    simp
  · have key : ∀ L : List Nat, L.Nodup → (∀ k ∈ L, k < 38) → (L.map (next + ·)).Nodup ∧ ∀ i ∈ L.map (next + ·), next ≤ i ∧ i < next + 38 := by
      intro L h1 h2
      refine ⟨h1.map fun a b e => by simpa using e, fun i hi => ?_⟩
      obtain ⟨k, hk, rfl⟩ := List.mem_map.1 hi
      have := h2 k hk
      omega
    cases bias
    · exact key [0, 1, 4, 5, 8, 9, 12, 13, 36, 37, 14, 15, 16, 17, 18, 19, 20, 21, 22, 23, 24, 25, 26, 27, 30, 31, 32, 33, 28, 29] (by decide) (by decide)
    · exact key [0, 1, 4, 5, 8, 9, 2, 3, 6, 7, 10, 11, 12, 13, 34, 35, 36, 37, 14, 15, 16, 17, 18, 19, 20, 21, 22, 23, 24, 25, 26, 27, 30, 31, 32, 33, 28, 29] (by decide) (by decide)

/-- `generate_simple` raises an exception if the query is not three-dimensional, if there are no heads, if the embedding size is not a multiple of the number of heads, or if the sequence
and batch dimensions of key or value differ from those of the query. -/
theorem C47_generate_rejects {xq xk xv : Moments} (nHead nHeadTile next : Nat) (bias : Bool) (mask : Option Tensor) (val : ℝ) (redux : Bool)
    (h : xq.value.shape.length ≠ 3 ∨ nHead = 0 ∨ ¬ nHead ∣ xq.value.shape.getD 0 0 ∨ xk.value.shape.drop 1 ≠ xq.value.shape.drop 1 ∨ xv.value.shape.drop 1 ≠ xq.value.shape.drop 1 ∨
      xk.value.basetile.drop 1 ≠ xq.value.basetile.drop 1 ∨ xv.value.basetile.drop 1 ≠ xq.value.basetile.drop 1) :
    Throws (Attention.generate xq xk xv nHead nHeadTile next bias mask val redux) := by
  unfold Attention.generate
  refine throws_step fun h1 => ?_
  rw [not_or, not_not, not_not] at h1
  obtain ⟨l1, l2⟩ := h1
  obtain ⟨e, s, b, eq⟩ := List.length_eq_three.1 l1
  obtain ⟨e', s', b', eq'⟩ := List.length_eq_three.1 l2
  rw [eq, eq'] at h
  rw [eq, eq']
  have g0 : ∀ a b c : Nat, [a, b, c].getD 0 0 = a ∧ [a, b, c].getD 1 0 = b ∧ [a, b, c].getD 2 0 = c := fun _ _ _ => ⟨rfl, rfl, rfl⟩
  simp only [g0] at h ⊢
  refine throws_step fun h2 => throws_step fun h3 => ?_
  have pi : ∀ L : List Nat, pyIndex L 0 = .ok (L.getD 0 0) ∨ Throws (pyIndex L 0) := by
    intro L
    cases L with
    | nil => exact .inr (throws_pos (by simp))
    | cons a L => exact .inl (by simp [pyIndex, throwIf]; rfl)
  have pt : ∀ {β γ : Type} (p : M β) (q : β → M γ), Throws p → Throws (p >>= q) := by
    rintro β γ p q ⟨e, rfl⟩
    exact ⟨e, rfl⟩
  have pd : ∀ L : List Nat, pyDrop L 1 = L.drop 1 := fun L => by simp [pyDrop]
  have hdv : nHead ∣ e := by
    rw [not_not] at h3
    exact ⟨e / nHead, by rw [mul_comm]; exact h3⟩
  rcases pi xk.value.shape with e1 | e1
  rotate_left
  · exact pt _ _ e1
  rcases pi xk.value.basetile with e2 | e2
  rotate_left
  · rw [e1, M.bind_ok]; exact pt _ _ e2
  rw [e1, e2, M.bind_ok, M.bind_ok, pd, pd]
  refine throws_step fun h4 => throws_step fun h5 => ?_
  rcases pi xv.value.shape with e3 | e3
  rotate_left
  · exact pt _ _ e3
  rcases pi xv.value.basetile with e4 | e4
  rotate_left
  · rw [e3, M.bind_ok]; exact pt _ _ e4
  rw [e3, e4, M.bind_ok, M.bind_ok, pd, pd]
  refine throws_step fun h6 => throws_step fun h7 => ?_
  rw [not_not] at h4 h5 h6 h7
  simp [h2, hdv, ← h4, ← h5, ← h6, ← h7] at h

/-- The weights with the mask value that the layer uses, minus infinity, in extended real numbers. These are the operations between the two products of `heads` (`clear`, `mask_scalar`,
`maxsumexp`, `softmax_inplace`, `invalidate`). The weights are exactly those of the softmax over the allowed positions, zero elsewhere (all of them are zero if no position is allowed). -/
theorem C47_masked_weights {l : Attention XReal} {S B H tS tB tH : Nat} (hval : l.val = .ninf) {T : Tensor} (hmask : l.mask = some T)
    (ha : l.a.value.shape = [S, S, B, H] ∧ l.a.value.basetile = [tS, tS, tB, tH]) (hmse : l.aMaxsumexp.shape = [2, S, B, H] ∧ l.aMaxsumexp.basetile = [2, tS, tB, tH])
    (hT : T.shape = [S, S] ∧ T.basetile = [tS, tS]) {s : Store XReal} (ra : l.a.value.Ready s) (rm : l.aMaxsumexp.Ready s) (rT : T.Ready s)
    (i1 : l.aMaxsumexp.id ≠ l.a.value.id) (i2 : T.id ≠ l.a.value.id) (i3 : T.id ≠ l.aMaxsumexp.id) (asIdx : XReal → Int) (invalidate : Bool) (score : List Nat → ℝ)
    (hs : l.a.value.Holds s (fun I => .fin (score I))) (w : List Nat → XReal) (hw : T.Holds s w) :
    Runs (seqAsync (((l.heads asIdx invalidate).drop 1).take 5)) s [l.a.value.id, l.aMaxsumexp.id] (fun s' => l.a.value.Holds s' (fun I =>
      .fin (if maskBool asIdx (w (I.take 2)) then Real.exp (score I) /
        ∑ i ∈ (range S).filter (fun i => maskBool asIdx (w [i, I.getD 1 0])), Real.exp (score (i :: I.drop 1)) else 0))) := by
  obtain ⟨a1, a2⟩ := ha
  obtain ⟨n1, n2⟩ := hmse
  obtain ⟨T1, T2⟩ := hT
  simp only [Attention.heads, List.drop_succ_cons, List.drop_zero, List.take_succ_cons, List.take_zero, hmask, hval]
  have hlead : T.LeadOf l.a.value := ⟨by rw [T1, a1]; simp, by rw [T1, a1]; rfl, by rw [T2, T1, a2]; rfl⟩
  have hms : l.aMaxsumexp.MseOf l.a.value 0 := ⟨by rw [a1]; simp, by rw [n1, a1]; rfl, by rw [n2, a2]; rfl⟩
  refine Runs.cons' (C11_clear rm).runs (by simp) fun s1 c1 q1 => ?_
  have hc := C21_mask_scalar (maskBool asIdx) (c1.ready rT (by simpa using i3)) (c1.ready ra (by simpa using i1.symm)) i2 hlead .ninf _ _ (c1.holds hw (by simpa using i3))
    (c1.holds hs (by simpa using i1.symm))
  have hnd : (l.a.value.ndim : Int) - T.ndim = 2 := by simp only [Tensor.ndim, T1, a1]; rfl
  rw [hnd] at hc
  refine Runs.cons' hc.runs (by simp) fun s2 c2 q2 => ?_
  have hx : ∀ I, InBox l.a.value.shape I → ((if maskBool asIdx (w (I.take T.ndim)) then .fin (score I) else .ninf : XReal)).NumOrMask := by
    intro I _
    split
    · exact .inr ⟨_, rfl⟩
    · exact .inl rfl
  obtain ⟨v, hv, hv'⟩ := C19_maxsumexp q2.2 (c2.ready q1.2 (by simpa using i1)) i1.symm hms l.redux _ q2.1 hx (c2.holds q1.1 (by simpa using i1))
  refine Runs.cons' hv.runs (by simp) fun s3 c3 q3 => ?_
  have h4 := C20_softmax_inplace q3.2 (c3.ready q2.2 (by simpa using i1.symm)) i1 hms 1 _ (c3.holds q2.1 (by simpa using i1.symm)) hx ⟨v, q3.1, hv'⟩
  refine Runs.cons' h4.runs (by simp) fun s4 c4 q4 => ?_
  have hfin : l.a.value.Holds s4 (fun I => .fin (if maskBool asIdx (w (I.take 2)) then Real.exp (score I) /
        ∑ i ∈ (range S).filter (fun i => maskBool asIdx (w [i, I.getD 1 0])), Real.exp (score (i :: I.drop 1)) else 0)) := by
    intro I hI
    rw [q4.1 I hI]
    rw [a1] at hI
    obtain ⟨i, j, n, h, hi, hj, hn, hh, rfl⟩ := mem_box4 (mem_box.2 hI)
    have e : T.ndim = 2 := by rw [Tensor.ndim, T1]; rfl
    have ew : ∀ i', expWeight 0 (if maskBool asIdx (w [i', j]) then .fin (score [i', j, n, h]) else .ninf : XReal) =
        if maskBool asIdx (w [i', j]) then Real.exp (score [i', j, n, h]) else 0 := by
      intro i'
      split <;> simp [expWeight]
    simp only [softmaxSpec, e, a1, List.set_cons_zero, List.take_succ_cons, List.take_zero, List.getD_cons_zero, List.getD_cons_succ, List.drop_succ_cons, List.drop_zero, ew,
      one_mul, sum_filter]
    split <;> simp
  let tens : Bool → Tensor := fun b => if b then l.a.value else l.aMaxsumexp
  let σ : Bool → Option (List Nat → XReal) := fun b => if b then some (fun I => .fin (if maskBool asIdx (w (I.take 2)) then Real.exp (score I) /
        ∑ i ∈ (range S).filter (fun i => maskBool asIdx (w [i, I.getD 1 0])), Real.exp (score (i :: I.drop 1)) else 0)) else none
  have st : St tens s4 σ := by
    refine ⟨fun b => ?_, fun b v hb => ?_⟩
    · cases b
      · exact c4.ready q3.2 (by simpa [tens] using i1)
      · exact q4.2
    · cases b
      · simp [σ] at hb
      · simp only [σ, if_true, Option.some.injEq] at hb
        subst hb
        exact hfin
  refine st.invalidate (i := false) ?_ invalidate (by simp [tens]) fun s5 h5 => Runs.nil (h5.hold true _ rfl)
  intro b b' e
  cases b <;> cases b' <;> simp [tens] at e ⊢
  · exact i1 e
  · exact i1 e.symm

/-! ### The hypotheses can be met: self-attention with biases and a mask, two heads of size 2 -/

def attnExampleX : Moments := ⟨⟨0, [4, 3, 2], [2, 2, 1]⟩, ⟨1, [4, 3, 2], [2, 2, 1]⟩, true⟩
def attnExampleMask : Tensor := ⟨2, [3, 3], [2, 2]⟩
def attnExampleDims : AttnDims := ⟨4, 4, 4, 3, 2, 2, 2⟩
def attnExampleTile : AttnDims := ⟨2, 2, 2, 2, 1, 1, 2⟩

theorem attnExample (asIdx : ℝ → Int) (val : ℝ) : ∃ l : Attention ℝ, Attention.generate attnExampleX attnExampleX attnExampleX 2 1 3 true (some attnExampleMask) val false = .ok l ∧
    l.Fits attnExampleDims attnExampleTile ∧ (l.toNet attnExampleDims asIdx true).Correct := by
  have hx : attnExampleX.Is [4, 3, 2] [2, 2, 1] := ⟨rfl, rfl, fun _ => ⟨rfl, rfl⟩⟩
  obtain ⟨l, h1, h2, h3, h4, h5, h6, h7, h8, h9, h10, h11, h12⟩ := C47_generate (z := attnExampleDims) (t := attnExampleTile) rfl rfl hx hx hx (by decide) (by decide) true
    (some attnExampleMask) (by rintro T ⟨⟩; exact ⟨rfl, rfl⟩) val false 3
  refine ⟨l, h1, h7, C47_attention h7 asIdx true ?_⟩
  have e : (l.toNet attnExampleDims asIdx true).ids.Perm ([0, 1, 2] ++ (l.params.flatMap Moments.ids ++ (l.y.ids ++ l.temps.map Tensor.id))) := by
    rw [List.perm_iff_count]
    intro a
    have ed : [attnExampleX, attnExampleX, attnExampleX].dedup = [attnExampleX] := by simp
    simp only [NetLayer.ids, Attention.toNet, Attention.ins, h2, h3, h4, h5, ed, Attention.params, List.flatMap_append, List.flatMap_cons, List.flatMap_nil, List.count_append,
      List.filterMap_cons, List.filterMap_nil, id_eq, Option.map_some, Option.toList_some, List.append_nil, List.count_nil]
    obtain ⟨b1, b2, b3, b4⟩ := h8
    obtain ⟨b1, e1⟩ := Option.isSome_iff_exists.1 b1
    obtain ⟨b2, e2⟩ := Option.isSome_iff_exists.1 b2
    obtain ⟨b3, e3⟩ := Option.isSome_iff_exists.1 b3
    obtain ⟨b4, e4⟩ := Option.isSome_iff_exists.1 b4
    have ex : attnExampleX.ids = [0, 1] := rfl
    have em : (maskMoments attnExampleMask).ids = [2] := rfl
    have e3' : ([0, 1, 2] : List Nat) = [0, 1] ++ [2] := rfl
    simp only [e1, e2, e3, e4, ex, em, e3', List.flatMap_cons, List.flatMap_nil, List.count_append, List.append_nil]
    omega
  rw [e.nodup_iff, List.nodup_append]
  refine ⟨by decide, h11, ?_⟩
  rintro i hi j hj rfl
  have := (h12 i hj).1
  simp at hi
  omega

example : ∃ (l : Attention ℝ) (z t : AttnDims) (asIdx : ℝ → Int), l.Fits z t ∧ (l.toNet z asIdx true).Correct :=
  (attnExample (fun _ => 1) (-10)).elim fun l h => ⟨l, _, _, _, h.2⟩

/-- A causal mask (position `i` may be used at `j` if `i ≤ j`) of three positions: with equal scores the weights at position 1 are one half for positions 0 and 1, zero for position 2. -/
example (l : Attention XReal) (h1 : l.val = .ninf) (h2 : l.mask = some ⟨2, [3, 3], [2, 2]⟩) (h3 : l.a.value = ⟨0, [3, 3, 1, 1], [2, 2, 1, 1]⟩)
    (h4 : l.aMaxsumexp = ⟨1, [2, 3, 1, 1], [2, 2, 1, 1]⟩) (asIdx : XReal → Int) (h5 : asIdx (.fin 1) = 1) (h6 : asIdx (.fin 0) = 0) : ∃ s : Store XReal,
    Runs (seqAsync (((l.heads asIdx true).drop 1).take 5)) s [0, 1] (fun s' =>
      l.a.value.get s' [0, 1, 0, 0] = some (.fin (1 / 2)) ∧ l.a.value.get s' [1, 1, 0, 0] = some (.fin (1 / 2)) ∧ l.a.value.get s' [2, 1, 0, 0] = some (.fin 0)) := by
  have h := storeOf_spec (α := XReal) [(l.a.value, fun _ => .fin 0), (l.aMaxsumexp, fun _ => .nan), (⟨2, [3, 3], [2, 2]⟩, fun I => if I.getD 0 0 ≤ I.getD 1 0 then .fin 1 else .fin 0)]
    (by simp [h3, h4, Tensor.WF, Pos]) (by simp [h3, h4])
  simp only [List.forall_mem_cons, List.not_mem_nil, IsEmpty.forall_iff, implies_true, and_true] at h
  refine ⟨_, (C47_masked_weights h1 h2 (by rw [h3]; exact ⟨rfl, rfl⟩) (by rw [h4]; exact ⟨rfl, rfl⟩) ⟨rfl, rfl⟩ h.1.1 h.2.1.1 h.2.2.1 (by rw [h3, h4]; decide) (by rw [h3]; decide)
    (by rw [h4]; decide) asIdx true (fun _ => 0) h.1.2 _ h.2.2.2).imp (by rw [h3, h4]; simp) fun s' _ hh => ?_⟩
  have hb : ∀ I ∈ box [3, 3, 1, 1], InBox l.a.value.shape I := fun I hI => by rw [h3]; exact mem_box.1 hI
  refine ⟨(hh _ (hb _ (in4 (by decide) (by decide) (by decide) (by decide)))).trans ?_, (hh _ (hb _ (in4 (by decide) (by decide) (by decide) (by decide)))).trans ?_,
    (hh _ (hb _ (in4 (by decide) (by decide) (by decide) (by decide)))).trans ?_⟩
  · dsimp only
    rw [sum_filter, sum_range_succ, sum_range_succ, sum_range_succ]
    norm_num [maskBool, h5, h6]
  · dsimp only
    rw [sum_filter, sum_range_succ, sum_range_succ, sum_range_succ]
    norm_num [maskBool, h5, h6]
  · simp [maskBool, h6]

end
end NNTile
