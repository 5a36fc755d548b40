import Verif.Lib.AttnForward
/-!
# Backward propagation of attention
-/
namespace NNTile
open Finset
noncomputable section

/-- What one tensor contributes to the gradients. -/
def gOf (m : Moments) (c : List Nat → ℝ) : Env := fun i J => if i = m.value.id then c J else 0

/-- The same of a bias, if there is one. -/
def gOpt (m : Option Moments) (c : List Nat → ℝ) : Env := fun i J => match m with
  | some b => gOf b c i J
  | none => 0

section project
variable {ι : Type} [DecidableEq ι] {ins gs : List Moments} {tens : ι → Tensor} {s : Store ℝ} {env g : Env} {σ : ι → Option (List Nat → ℝ)}

theorem LSt.accOpt (sep : LSep ins gs tens) (h : LSt ins gs tens s env g σ) {bias : Option Moments} (hm : ∀ m, bias = some m → m ∈ gs) {c : List Nat → ℝ}
    {p : Moments → M (List (Task1 ℝ))}
    (hp : ∀ m, bias = some m → m.gradRequired = true → m.grad.Ready s → m.grad.Holds s (g m.value.id) → Computes (p m) s m.grad (fun J => g m.value.id J + c J))
    {ps : List (M (List (Task1 ℝ)))} {ids : List Nat} (hi : ∀ m, bias = some m → ∀ i ∈ m.gradIds, i ∈ ids) {P : Store ℝ → Prop}
    (k : ∀ s', LSt ins gs tens s' env (fun i J => g i J + gOpt bias c i J) σ → Runs (seqAsync ps) s' ids P) :
    Runs (seqAsync ((match bias with
      | some b => whenAsync b.gradRequired (p b)
      | none => .ok []) :: ps)) s ids P := by
  cases bias with
  | none =>
    refine LSt.skip (k s ?_)
    simpa [gOpt] using h
  | some b => exact h.acc sep (hm b rfl) (hp b rfl) (hi b rfl) k

/-- The gradients from the projection of one of the inputs. -/
def projG (S B H D : Nat) (w x : Moments) (bias : Option Moments) (env : Env) (dp : List Nat → ℝ) : Env := fun i J =>
  gOpt bias (fiberG [D, S, B, H] 1 dp) i J + gOf x (projGX H D (env w.value.id) dp) i J + gOf w (projGW S B dp (env x.value.id)) i J

theorem attnProjectBackward_runs (sep : LSep ins gs tens) (h : LSt ins gs tens s env g σ) {w x pT p : Moments} {bias : Option Moments} {i j : ι} (hi : tens i = pT.grad)
    (hj : tens j = p.grad) (hij : i ≠ j) (mw : w ∈ ins) (mx : x ∈ ins) (mw' : w ∈ gs) (mx' : x ∈ gs) (mb : ∀ m, bias = some m → m ∈ gs)
    {E S B H D E' S' B' H' D' : Nat}
    (fw : w.Is [H, D, E] [H', D', E']) (fx : x.Is [E, S, B] [E', S', B']) (fT : pT.Is [H, D, S, B] [H', D', S', B']) (fp : p.Is [D, S, B, H] [D', S', B', H'])
    (fb : ∀ m, bias = some m → m.Is [D, H] [D', H']) (rT : pT.gradRequired = true) (rp : p.gradRequired = true) (en redux : Bool)
    {dp : List Nat → ℝ} (hdp : σ j = some dp) {ps : List (M (List (Task1 ℝ)))} {ids : List Nat} (ii : (tens i).id ∈ ids) (ij : (tens j).id ∈ ids)
    (ig : ∀ m ∈ gs, ∀ i ∈ m.gradIds, i ∈ ids) {P : Store ℝ → Prop}
    (k : ∀ s' σ', LSt ins gs tens s' env (fun i J => g i J + projG S B H D w x bias env dp i J) σ' → (∀ o, o ≠ i → o ≠ j → σ' o = σ o) → Runs (seqAsync ps) s' ids P) :
    Runs (seqAsync (attnProjectBackward en redux w x pT p bias ++ ps)) s ids P := by
  obtain ⟨w1, w2, w3⟩ := fw
  obtain ⟨x1, x2, x3⟩ := fx
  obtain ⟨t1, t2⟩ := fT.2.2 rT
  obtain ⟨p1, p2⟩ := fp.2.2 rp
  rw [← hi] at t1 t2
  rw [← hj] at p1 p2
  simp only [attnProjectBackward, List.cons_append, List.nil_append, ← hi, ← hj]
  -- bias
  refine h.accOpt sep mb (c := fiberG [D, S, B, H] 1 dp) (p := fun b => sumFiberAsync 1 (tens j) 1 b.grad 0 1 redux) (fun b hb hr r1 r2 => ?_) (fun m hm => ig m (mb m hm)) fun s1 h1 => ?_
  · obtain ⟨b1, b2⟩ := (fb b hb).2.2 hr
    refine (C15_sum_fiber (a := 0) (b := 1) (h.ready j) r1 (fun e => sep.gt b (mb b hb) hr j e.symm) ⟨by rw [p1]; simp, by rw [b1, p1]; rfl, by rw [b2, p1, p2]; rfl⟩
      1 1 redux dp _ (h.hold hdp) (fun _ => r2)).congr fun I _ => ?_
    rw [p1]
    simp [fiberG]
  -- transposition
  rw [rT]
  refine LSt.when_true rfl (h1.step sep (i := i) (v := fun I => dp (I.drop 1 ++ I.take 1)) (transpose_computes (nd := 3) (h1.ready j) (h1.ready i)
    (fun e => hij (sep.inj e).symm) ⟨by decide, by rw [p1]; simp, by rw [p1, t1]; rfl, by rw [p2, t2]; rfl⟩ (h1.hold hdp) ?_) ii fun s2 h2 => ?_)
  · intro I hI J hJ
    rw [p1] at hI hJ
    obtain ⟨h, hh, rfl⟩ := mem_box1 hJ
    rfl
  refine h2.inval sep j en ij fun s3 h3 => ?_
  have ei : Function.update (Function.update σ i (some fun I => dp (I.drop 1 ++ I.take 1))) j none i = some fun I => dp (I.drop 1 ++ I.take 1) := by
    rw [Function.update_of_ne hij, Function.update_self]
  -- input
  refine h3.acc sep mx' (c := projGX H D (env w.value.id) dp) (fun hr r1 r2 => ?_) (ig x mx') fun s4 h4 => ?_
  · obtain ⟨x3, x4⟩ := x3 hr
    refine gemm_computes (tA := .trans) (tB := .noTrans) (nd := 2) (bt := 0) (h3.value mw).1 (h3.ready i) r1 (sep.vg _ mw x mx' hr) (fun e => sep.gt x mx' hr i e.symm)
      (M := [E]) (K := [H, D]) (N := [S, B]) (R := []) ⟨rfl, rfl, w1, t1, x3⟩ ⟨[E'], [H', D'], [S', B'], [], rfl, rfl, w2, t2, x4⟩ 1 1 redux _ (h3.value mw).2
      (h3.hold ei) (fun _ => r2) fun I hI J hJ b hb => ?_
    obtain ⟨e, he, rfl⟩ := mem_box1 hI
    obtain ⟨s, n, hs, hn, rfl⟩ := mem_box2 hJ
    obtain rfl := mem_box_nil hb
    simp [projGX, sum_box2]
    ring
  -- weights
  refine h4.acc sep mw' (c := projGW S B dp (env x.value.id)) (fun hr r1 r2 => ?_) (ig w mw') fun s5 h5 => ?_
  · obtain ⟨w3, w4⟩ := w3 hr
    refine gemm_computes (tA := .noTrans) (tB := .trans) (nd := 2) (bt := 0) (h4.ready i) (h4.value mx).1 r1 (fun e => sep.gt w mw' hr i e.symm) (sep.vg _ mx w mw' hr)
      (M := [H, D]) (K := [S, B]) (N := [E]) (R := []) ⟨rfl, rfl, t1, x1, w3⟩ ⟨[H', D'], [S', B'], [E'], [], rfl, rfl, t2, x2, w4⟩ 1 1 redux _ (h4.hold ei)
      (h4.value mx).2 (fun _ => r2) fun I hI J hJ b hb => ?_
    obtain ⟨h, d, hh, hd, rfl⟩ := mem_box2 hI
    obtain ⟨e, he, rfl⟩ := mem_box1 hJ
    obtain rfl := mem_box_nil hb
    simp [projGW, sum_box2]
    ring
  refine h5.inval sep i en ii fun s6 h6 => k s6 _ ⟨h6.vals, ?_, h6.st⟩ ?_
  · have e : (fun i J => g i J + projG S B H D w x bias env dp i J) = fun i_1 J => g i_1 J + gOpt bias (fiberG [D, S, B, H] 1 dp) i_1 J +
        (if i_1 = x.value.id then projGX H D (env w.value.id) dp J else 0) + if i_1 = w.value.id then projGW S B dp (env x.value.id) J else 0 := by
      funext i J
      simp only [projG, gOf, add_assoc]
    rw [e]
    exact h6.grads
  · intro o o1 o2
    rw [Function.update_of_ne o1, Function.update_of_ne o2, Function.update_of_ne o1]

end project

theorem seqAsync_seq {α : Type} (L ps : List (M (List (Task1 α)))) : seqAsync (seqAsync L :: ps) = seqAsync (L ++ ps) := by
  induction L with
  | nil => 
    simp only [seqAsync, M.bind_ok, List.nil_append]
    cases seqAsync ps <;> rfl
  | cons p L ih =>
    rw [List.cons_append, seqAsync, seqAsync, seqAsync, ← ih]
    cases p with
    | error e => rfl
    | ok t =>
      simp only [M.bind_ok, seqAsync]
      cases seqAsync L with
      | error e => rfl
      | ok ts =>
        simp only [M.bind_ok]
        cases seqAsync ps with
        | error e => rfl
        | ok us => simp only [M.bind_ok, List.append_assoc]

theorem attnMasked_none' (S : Nat) (val : ℝ) (a s' : List Nat → ℝ) (env : Env) (asIdx : ℝ → Int) :
    attnMasked (maskAt asIdx none env) val (softD S a s') = softD S a s' := by
  funext I
  unfold attnMasked
  split
  · simp [maskAt]
  · next hne =>
    unfold softD
    split
    · exact absurd rfl (hne _ _ _ _)
    · rfl

namespace Attention
variable (l : Attention ℝ) (z : AttnDims) (asIdx : ℝ → Int) (env : Env) (dy : List Nat → ℝ)

/-- The gradients of the results of the heads, the weights, the scores, values, keys, queries. -/
def dB : List Nat → ℝ := combGB z.E (env l.w.value.id) dy
def dA : List Nat → ℝ := headsGA z.D (l.V z env) (l.dB z env dy)
def dS : List Nat → ℝ := attnMasked (maskAt asIdx l.mask env) 0 (softD z.S (l.A z asIdx env) (l.dA z env dy))
def dV : List Nat → ℝ := headsGV z.S (l.dB z env dy) (l.A z asIdx env)
def dK : List Nat → ℝ := scoreGK z.D z.S (l.Q z env) (l.dS z asIdx env dy)
def dQ : List Nat → ℝ := scoreGQ z.D z.S (l.K z env) (l.dS z asIdx env dy)

/-- All of the gradients. -/
def G : Env := fun i J => gOpt l.biasOut (fiberG [z.E, z.S, z.B] 0 dy) i J + gOf l.w (combGW z.S z.B dy (l.headsOut z asIdx env)) i J +
  projG z.S z.B z.H z.D l.wv l.xv l.biasV env (l.dV z asIdx env dy) i J + projG z.S z.B z.H z.D l.wk l.xk l.biasK env (l.dK z asIdx env dy) i J +
  projG z.S z.B z.H z.D l.wq l.xq l.biasQ env (l.dQ z asIdx env dy) i J

end Attention

set_option maxHeartbeats 2000000 in
theorem attn_backward {l : Attention ℝ} {z t : AttnDims} (fit : l.Fits z t) {asIdx : ℝ → Int} {en : Bool} (ids : (l.toNet z asIdx en).ids.Nodup) {s : Store ℝ}
    {env : Env} {dy : List Nat → ℝ} {g0 : Env} (hv : ValuesHold l.ins s env) (hs : (l.toNet z asIdx en).Saved env s) (hr : AllReady l.temps s) (yr : l.y.grad.Ready s)
    (yh : l.y.grad.Holds s dy) (hg : GradsHold l.ins s g0) :
    Runs (l.backwardAsync asIdx en) s (l.ins.flatMap Moments.gradIds ++ l.temps.map Tensor.id) (fun s' =>
      AllReady l.temps s' ∧ GradsHold l.ins s' (fun i J => g0 i J + l.G z asIdx env dy i J)) := by
  have ry := fit.required l.y (by simp)
  have sep := Attention.sep ids (out := l.y.grad) (by simp [Moments.ids, Moments.gradIds, ry])
  obtain ⟨m1, m2, m3, m4, m5, m6, m7, m8, m9, m10, m11, m12⟩ := l.mem_ins
  have tm : ∀ i : AI, i ≠ .out → (l.tens l.y.grad i).id ∈ l.ins.flatMap Moments.gradIds ++ l.temps.map Tensor.id :=
    fun i hi => List.mem_append_right _ (l.tens_mem' hi)
  have gm : ∀ m ∈ l.ins, ∀ i ∈ m.gradIds, i ∈ l.ins.flatMap Moments.gradIds ++ l.temps.map Tensor.id :=
    fun m hm i hi => List.mem_append_left _ (List.mem_flatMap.2 ⟨m, hm, hi⟩)
  have rd : AllReady (l.y.grad :: l.temps) s := by
    intro T hT
    rcases List.mem_cons.1 hT with rfl | hT
    · exact yr
    · exact hr T hT
  obtain ⟨sq, sk, sv, sa, sb⟩ := hs
  obtain ⟨σ0, eσ⟩ : ∃ σ0 : AI → Option (List Nat → ℝ), σ0 = fun o => match o with
      | .out => some dy
      | .qv => some (l.Q z env)
      | .kv => some (l.K z env)
      | .vv => some (l.V z env)
      | .av => some (l.A z asIdx env)
      | .bTv => some (fun I => l.headsOut z asIdx env (I.drop 1 ++ I.take 1))
      | _ => none := ⟨_, rfl⟩
  have h0 : LSt l.ins l.ins (l.tens l.y.grad) s env g0 σ0 := by
    refine ⟨hv, hg, ⟨l.tens_ready rd, fun i v e => ?_⟩⟩
    rw [eσ] at e
    cases i <;> simp only [Option.some.injEq, reduceCtorEq] at e <;> subst e <;> assumption
  have e0 : σ0 .out = some dy := by rw [eσ]
  have eq : σ0 .qv = some (l.Q z env) := by rw [eσ]
  have ek : σ0 .kv = some (l.K z env) := by rw [eσ]
  have ev : σ0 .vv = some (l.V z env) := by rw [eσ]
  have ea : σ0 .av = some (l.A z asIdx env) := by rw [eσ]
  have eb : σ0 .bTv = some (fun I => l.headsOut z asIdx env (I.drop 1 ++ I.take 1)) := by rw [eσ]
  clear eσ sq sk sv sa sb
  have ne : ∀ {i j : AI}, i ≠ j → (l.tens l.y.grad i).id ≠ (l.tens l.y.grad j).id := fun hij e => hij (sep.inj e)
  have req := fit.required
  have ra := req l.a (by simp)
  have rq := req l.q (by simp)
  have rk := req l.k (by simp)
  have rv := req l.v (by simp)
  have rb := req l.b (by simp)
  have rbT := req l.bT (by simp)
  obtain ⟨a1, a2, a3⟩ := fit.a
  obtain ⟨q1, q2, q3⟩ := fit.t4 l.q (by simp)
  obtain ⟨k1, k2, k3⟩ := fit.t4 l.k (by simp)
  obtain ⟨v1, v2, v3⟩ := fit.t4 l.v (by simp)
  obtain ⟨b1, b2, b3⟩ := fit.t4 l.b (by simp)
  obtain ⟨bT1, bT2, bT3⟩ := fit.tT l.bT (by simp)
  obtain ⟨sps1, sps2⟩ := fit.sps
  obtain ⟨w1, w2, w3⟩ := fit.w
  obtain ⟨y1, y2, y3⟩ := fit.y
  obtain ⟨a3, a4⟩ := a3 ra
  obtain ⟨q3, q4⟩ := q3 rq
  obtain ⟨k3, k4⟩ := k3 rk
  obtain ⟨v3, v4⟩ := v3 rv
  obtain ⟨b3, b4⟩ := b3 rb
  obtain ⟨bT3, bT4⟩ := bT3 rbT
  obtain ⟨y3, y4⟩ := y3 ry
  simp only [Attention.backwardAsync, List.append_assoc, Attention.combineBackward, Attention.headsBackward, List.cons_append, List.nil_append, ra, rq, rk, rv, rb, rbT]
  -- bias
  refine h0.accOpt sep m11 (c := fiberG [z.E, z.S, z.B] 0 dy) (p := fun b => sumFiberAsync 1 l.y.grad 1 b.grad 0 0 l.redux) (fun b hb hr r1 r2 => ?_)
    (fun m hm => gm m (m11 m hm)) fun s1 h1 => ?_
  · obtain ⟨c1, c2⟩ := (fit.bo b hb).2.2 hr
    refine (C15_sum_fiber (a := 0) (b := 0) (h0.ready .out) r1 (fun e => sep.gt b (m11 b hb) hr .out e.symm)
      ⟨by simp only [Attention.tens]; rw [y3]; simp, by simp only [Attention.tens]; rw [c1, y3]; rfl, by simp only [Attention.tens]; rw [c2, y3, y4]; rfl⟩
      1 1 l.redux dy _ (h0.hold e0) (fun _ => r2)).congr fun I _ => ?_
    simp only [Attention.tens]
    rw [y3]
    simp [fiberG]
  -- output weights
  refine h1.acc sep m7 (c := combGW z.S z.B dy (l.headsOut z asIdx env)) (fun hr r1 r2 => ?_) (gm l.w m7) fun s2 h2 => ?_
  · obtain ⟨w3, w4⟩ := w3 hr
    refine gemm_computes (tA := .noTrans) (tB := .trans) (nd := 2) (bt := 0) (h1.ready .out) (h1.ready .bTv) r1 (fun e => sep.gt _ m7 hr .out e.symm)
      (fun e => sep.gt _ m7 hr .bTv e.symm) (M := [z.E]) (K := [z.S, z.B]) (N := [z.H, z.D]) (R := []) ⟨rfl, rfl, y3, bT1, w3⟩
      ⟨[t.E], [t.S, t.B], [t.H, t.D], [], rfl, rfl, y4, bT2, w4⟩ 1 1 l.redux _ (h1.hold e0) (h1.hold eb) (fun _ => r2) fun I hI J hJ b hb => ?_
    obtain ⟨e, he, rfl⟩ := mem_box1 hI
    obtain ⟨h, d, hh, hd, rfl⟩ := mem_box2 hJ
    obtain rfl := mem_box_nil hb
    simp [combGW, sum_box2]
    ring
  refine h2.inval sep .bTv en (tm _ (by decide)) fun s3 h3 => ?_
  -- results of the heads
  refine LSt.when_true rfl (h3.step sep (i := .bTg) (v := fun I => l.dB z env dy (I.drop 1 ++ I.take 1)) (gemm_computes (tA := .trans) (tB := .noTrans) (nd := 1) (bt := 0)
    (h3.value m7).1 (h3.ready .out) (h3.ready .bTg) (sep.vt _ m7 .bTg) (ne (by decide)) (M := [z.H, z.D]) (K := [z.E]) (N := [z.S, z.B]) (R := []) ⟨rfl, rfl, w1, y3, bT3⟩
    ⟨[t.H, t.D], [t.E], [t.S, t.B], [], rfl, rfl, w2, y4, bT4⟩ 1 0 l.redux (fun _ => 0) (h3.value m7).2 (h3.hold (i := .out) (v := dy) (by simp [Function.update_apply, e0])) (by simp) ?_)
    (tm _ (by decide)) fun s4 h4 => ?_)
  · intro I hI J hJ b hb
    obtain ⟨h, d, hh, hd, rfl⟩ := mem_box2 hI
    obtain ⟨j, n, hj, hn, rfl⟩ := mem_box2 hJ
    obtain rfl := mem_box_nil hb
    simp [Attention.dB, combGB, sum_box1]
  refine LSt.when_true rfl (h4.step sep (i := .bg) (v := l.dB z env dy) (transpose_computes (nd := 1) (h4.ready .bTg) (h4.ready .bg)
      (ne (by decide)) ⟨by decide, by simp only [Attention.tens]; rw [bT3]; simp, by simp only [Attention.tens]; rw [bT3, b3]; rfl, by simp only [Attention.tens]; rw [bT4, b4]; rfl⟩
      (h4.hold (Function.update_self ..)) ?_) (tm _ (by decide)) fun s5 h5 => ?_)
  · intro I hI J hJ
    simp only [Attention.tens] at hI hJ
    rw [bT3] at hI hJ
    obtain ⟨h, hh, rfl⟩ := mem_box1 hI
    rfl
  refine h5.inval sep .bTg en (tm _ (by decide)) fun s6 h6 => ?_
  set σ6 := Function.update (Function.update (Function.update (Function.update σ0 AI.bTv none) AI.bTg (some fun I => l.dB z env dy (I.drop 1 ++ I.take 1))) AI.bg
    (some (l.dB z env dy))) AI.bTg none with hσ6
  have f6 : ∀ o, o ≠ .bTv → o ≠ .bTg → o ≠ .bg → σ6 o = σ0 o := by
    intro o o1 o2 o3
    simp [hσ6, Function.update_apply, o1, o2, o3]
  have eb6 : σ6 .bg = some (l.dB z env dy) := by simp [hσ6, Function.update_apply]
  clear_value σ6
  clear h0 h1 h2 h3 h4 h5 hσ6 eb
  replace eq := (f6 .qv (by decide) (by decide) (by decide)).trans eq
  replace ek := (f6 .kv (by decide) (by decide) (by decide)).trans ek
  replace ev := (f6 .vv (by decide) (by decide) (by decide)).trans ev
  replace ea := (f6 .av (by decide) (by decide) (by decide)).trans ea
  clear f6 e0
  -- weights
  refine LSt.when_true rfl (h6.step sep (i := .ag) (v := l.dA z env dy) (gemm_computes (tA := .trans) (tB := .noTrans) (nd := 1) (bt := 2) (h6.ready .vv) (h6.ready .bg)
    (h6.ready .ag) (ne (by decide)) (ne (by decide)) (M := [z.S]) (K := [z.D]) (N := [z.S]) (R := [z.B, z.H]) ⟨rfl, rfl, v1, b3, a3⟩
    ⟨[t.S], [t.D], [t.S], [t.B, t.H], rfl, rfl, v2, b4, a4⟩ 1 0 l.redux (fun _ => 0) (h6.hold ev) (h6.hold eb6) (by simp) ?_) (tm _ (by decide)) fun s7 h7 => ?_)
  · intro I hI J hJ b hb
    obtain ⟨i, hi, rfl⟩ := mem_box1 hI
    obtain ⟨j, hj, rfl⟩ := mem_box1 hJ
    obtain ⟨n, h, hn, hh, rfl⟩ := mem_box2 hb
    simp [Attention.dA, headsGA, sum_box1]
  refine h7.inval sep .vv en (tm _ (by decide)) fun s8 h8 => ?_
  -- values
  refine LSt.when_true rfl (h8.step sep (i := .vg) (v := l.dV z asIdx env dy) (gemm_computes (tA := .noTrans) (tB := .trans) (nd := 1) (bt := 2) (h8.ready .bg) (h8.ready .av)
    (h8.ready .vg) (ne (by decide)) (ne (by decide)) (M := [z.D]) (K := [z.S]) (N := [z.S]) (R := [z.B, z.H]) ⟨rfl, rfl, b3, a1, v3⟩
    ⟨[t.D], [t.S], [t.S], [t.B, t.H], rfl, rfl, b4, a2, v4⟩ 1 0 l.redux (fun _ => 0) (h8.hold (i := .bg) (v := l.dB z env dy) (by simp [Function.update_apply, eb6]))
    (h8.hold (i := .av) (v := l.A z asIdx env) (by simp [Function.update_apply, ea])) (by simp) ?_) (tm _ (by decide)) fun s9 h9 => ?_)
  · intro I hI J hJ b hb
    obtain ⟨i, hi, rfl⟩ := mem_box1 hI
    obtain ⟨j, hj, rfl⟩ := mem_box1 hJ
    obtain ⟨n, h, hn, hh, rfl⟩ := mem_box2 hb
    simp [Attention.dV, headsGV, sum_box1]
  refine h9.inval sep .bg en (tm _ (by decide)) fun s10 h10 => ?_
  set σ10 := Function.update (Function.update (Function.update (Function.update σ6 AI.ag (some (l.dA z env dy))) AI.vv none) AI.vg (some (l.dV z asIdx env dy))) AI.bg none with hσ
  have eg10 : σ10 .ag = some (l.dA z env dy) := by simp [hσ, Function.update_apply]
  have ev10 : σ10 .vg = some (l.dV z asIdx env dy) := by simp [hσ, Function.update_apply]
  replace eq : σ10 .qv = _ := Eq.trans (by simp [hσ, Function.update_apply]) eq
  replace ek : σ10 .kv = _ := Eq.trans (by simp [hσ, Function.update_apply]) ek
  replace ea : σ10 .av = _ := Eq.trans (by simp [hσ, Function.update_apply]) ea
  clear_value σ10
  clear hσ h6 h7 h8 h9 ev eb6
  -- softmax
  refine LSt.when_true rfl ?_
  rw [seqAsync_seq]
  simp only [List.cons_append, List.nil_append]
  refine h10.step sep (i := .sps) (C14_sumprod_slice_partial (a := 0) (h10.ready .av) (h10.ready .ag) (h10.ready .sps) (ne (by decide)) (ne (by decide))
    ⟨by simp only [Attention.tens]; rw [a1]; simp, by simp only [Attention.tens]; rw [sps1, a1]; rfl, by simp only [Attention.tens]; rw [sps2, a2]; rfl⟩
    (by simp only [Attention.tens]; rw [a1, a3]) (by simp only [Attention.tens]; rw [a2, a4]) 1 0 l.redux _ _ (fun _ => 0) (h10.hold ea) (h10.hold eg10) (by simp))
    (tm _ (by decide)) fun s11 h11 => ?_
  simp only [Attention.tens, a1] at h11
  refine h11.step sep (i := .ag) (C12_add_slice (a := 0) (h11.ready .sps) (h11.ready .ag) (ne (by decide))
    ⟨by simp only [Attention.tens]; rw [a3]; simp, by simp only [Attention.tens]; rw [sps1, a3]; rfl, by simp only [Attention.tens]; rw [sps2, a4]; rfl⟩
    (-1) 1 _ _ (h11.hold (Function.update_self ..)) (fun _ => h11.hold (v := l.dA z env dy) (by rw [Function.update_of_ne (by decide), eg10]))) (tm _ (by decide)) fun s12 h12 => ?_
  refine h12.inval sep .sps en (tm _ (by decide)) fun s13 h13 => ?_
  refine h13.step sep (i := .ag) (v := softD z.S (l.A z asIdx env) (l.dA z env dy)) ((C11_prod (h13.ready .av) (h13.ready .ag) ⟨ne (by decide), by simp only [Attention.tens]; rw [a1, a3],
    by simp only [Attention.tens]; rw [a2, a4]⟩ (l.A z asIdx env) _ (h13.hold (by rw [Function.update_of_ne (by decide), Function.update_of_ne (by decide), Function.update_of_ne (by decide), ea]))
    (h13.hold (by rw [Function.update_of_ne (by decide), Function.update_self]))).congr ?_) (tm _ (by decide)) fun s14 h14 => ?_
  · intro I hI
    simp only [Attention.tens] at hI
    rw [a3] at hI
    obtain ⟨i, j, n, h, hi, hj, hn, hh, rfl⟩ := mem_box4 (mem_box.2 hI)
    simp [softD]
    ring
  refine h14.inval sep .av en (tm _ (by decide)) fun s15 h15 => ?_
  obtain ⟨σ15, h15, eg15, f15⟩ : ∃ σ15, LSt l.ins l.ins (l.tens l.y.grad) s15 env (fun i J => g0 i J + gOpt l.biasOut (fiberG [z.E, z.S, z.B] 0 dy) i J +
      if i = l.w.value.id then combGW z.S z.B dy (l.headsOut z asIdx env) J else 0) σ15 ∧ σ15 .ag = some (softD z.S (l.A z asIdx env) (l.dA z env dy)) ∧
      ∀ o, o ≠ .ag → o ≠ .av → o ≠ .sps → σ15 o = σ10 o :=
    ⟨_, h15, by rw [Function.update_of_ne (by decide), Function.update_self], fun o o1 o2 o3 => by
      rw [Function.update_of_ne o2, Function.update_of_ne o1, Function.update_of_ne o3, Function.update_of_ne o1, Function.update_of_ne o3]⟩
  clear h10 h11 h12 h13 h14
  replace eq := (f15 .qv (by decide) (by decide) (by decide)).trans eq
  replace ek := (f15 .kv (by decide) (by decide) (by decide)).trans ek
  replace ev10 := (f15 .vg (by decide) (by decide) (by decide)).trans ev10
  clear f15 ea eg10
  -- after the mask
  have mid : ∀ s16 σ16, LSt l.ins l.ins (l.tens l.y.grad) s16 env (fun i J => g0 i J + gOpt l.biasOut (fiberG [z.E, z.S, z.B] 0 dy) i J +
      if i = l.w.value.id then combGW z.S z.B dy (l.headsOut z asIdx env) J else 0) σ16 → σ16 .ag = some (l.dS z asIdx env dy) → (∀ o, o ≠ .ag → σ16 o = σ15 o) →
      Runs (seqAsync (whenAsync true (gemmAsync l.scale TransOp.noTrans l.q.value TransOp.trans l.a.grad 0 l.k.grad 1 2 l.redux) :: invalidateAsync en l.q.value ::
        whenAsync true (gemmAsync l.scale TransOp.noTrans l.k.value TransOp.noTrans l.a.grad 0 l.q.grad 1 2 l.redux) :: invalidateAsync en l.k.value ::
        invalidateAsync en l.a.grad :: (attnProjectBackward en l.redux l.wv l.xv l.vT l.v l.biasV ++ (attnProjectBackward en l.redux l.wk l.xk l.kT l.k l.biasK ++
          attnProjectBackward en l.redux l.wq l.xq l.qT l.q l.biasQ)))) s16 (l.ins.flatMap Moments.gradIds ++ l.temps.map Tensor.id) (fun s' =>
      AllReady l.temps s' ∧ GradsHold l.ins s' (fun i J => g0 i J + l.G z asIdx env dy i J)) := by
    intro s16 σ16 h16 eg f16
    replace eq := (f16 .qv (by decide)).trans eq
    replace ek := (f16 .kv (by decide)).trans ek
    replace ev := (f16 .vg (by decide)).trans ev10
    clear f16 ev10
    -- keys
    refine LSt.when_true rfl (h16.step sep (i := .kg) (v := l.dK z asIdx env dy) (gemm_computes (tA := .noTrans) (tB := .trans) (nd := 1) (bt := 2) (h16.ready .qv) (h16.ready .ag)
      (h16.ready .kg) (ne (by decide)) (ne (by decide)) (M := [z.D]) (K := [z.S]) (N := [z.S]) (R := [z.B, z.H]) ⟨rfl, rfl, q1, a3, k3⟩
      ⟨[t.D], [t.S], [t.S], [t.B, t.H], rfl, rfl, q2, a4, k4⟩ _ 0 l.redux (fun _ => 0) (h16.hold eq) (h16.hold eg) (by simp) ?_) (tm _ (by decide)) fun s17 h17 => ?_)
    · intro I hI J hJ b hb
      obtain ⟨i, hi, rfl⟩ := mem_box1 hI
      obtain ⟨j, hj, rfl⟩ := mem_box1 hJ
      obtain ⟨n, h, hn, hh, rfl⟩ := mem_box2 hb
      simp [Attention.dK, scoreGK, sum_box1, scale_real, fit.headSize]
    refine h17.inval sep .qv en (tm _ (by decide)) fun s18 h18 => ?_
    -- queries
    refine LSt.when_true rfl (h18.step sep (i := .qg) (v := l.dQ z asIdx env dy) (gemm_computes (tA := .noTrans) (tB := .noTrans) (nd := 1) (bt := 2) (h18.ready .kv)
      (h18.ready .ag) (h18.ready .qg) (ne (by decide)) (ne (by decide)) (M := [z.D]) (K := [z.S]) (N := [z.S]) (R := [z.B, z.H]) ⟨rfl, rfl, k1, a3, q3⟩
      ⟨[t.D], [t.S], [t.S], [t.B, t.H], rfl, rfl, k2, a4, q4⟩ _ 0 l.redux (fun _ => 0)
      (h18.hold (v := l.K z env) (by rw [Function.update_of_ne (by decide), Function.update_of_ne (by decide), ek]))
      (h18.hold (v := l.dS z asIdx env dy) (by rw [Function.update_of_ne (by decide), Function.update_of_ne (by decide), eg])) (by simp) ?_) (tm _ (by decide)) fun s19 h19 => ?_)
    · intro I hI J hJ b hb
      obtain ⟨i, hi, rfl⟩ := mem_box1 hI
      obtain ⟨j, hj, rfl⟩ := mem_box1 hJ
      obtain ⟨n, h, hn, hh, rfl⟩ := mem_box2 hb
      simp [Attention.dQ, scoreGQ, sum_box1, scale_real, fit.headSize]
    refine h19.inval sep .kv en (tm _ (by decide)) fun s20 h20 => ?_
    refine h20.inval sep .ag en (tm _ (by decide)) fun s21 h21 => ?_
    -- projections
    refine attnProjectBackward_runs sep h21 (i := .vTg) (j := .vg) rfl rfl (by decide) m6 m3 m6 m3 m10 fit.wv fit.xv (fit.tT l.vT (by simp)) (fit.t4 l.v (by simp))
      (fit.bqkv _ (by simp)) (req l.vT (by simp)) rv en l.redux (dp := l.dV z asIdx env dy)
      (by rw [Function.update_of_ne (by decide), Function.update_of_ne (by decide), Function.update_of_ne (by decide), Function.update_of_ne (by decide),
        Function.update_of_ne (by decide), ev]) (tm _ (by decide)) (tm _ (by decide)) gm fun s22 σ22 h22 f22 => ?_
    refine attnProjectBackward_runs sep h22 (i := .kTg) (j := .kg) rfl rfl (by decide) m5 m2 m5 m2 m9 fit.wk fit.xk (fit.tT l.kT (by simp)) (fit.t4 l.k (by simp))
      (fit.bqkv _ (by simp)) (req l.kT (by simp)) rk en l.redux (dp := l.dK z asIdx env dy)
      (by rw [f22 _ (by decide) (by decide), Function.update_of_ne (by decide), Function.update_of_ne (by decide), Function.update_of_ne (by decide),
        Function.update_of_ne (by decide), Function.update_self]) (tm _ (by decide)) (tm _ (by decide)) gm fun s23 σ23 h23 f23 => ?_
    have := attnProjectBackward_runs sep h23 (i := .qTg) (j := .qg) rfl rfl (by decide) m4 m1 m4 m1 m8 fit.wq fit.xq (fit.tT l.qT (by simp)) (fit.t4 l.q (by simp))
      (fit.bqkv _ (by simp)) (req l.qT (by simp)) rq en l.redux (dp := l.dQ z asIdx env dy)
      (by rw [f23 _ (by decide) (by decide), f22 _ (by decide) (by decide), Function.update_of_ne (by decide), Function.update_of_ne (by decide), Function.update_self])
      (tm _ (by decide)) (tm _ (by decide)) gm (ps := []) (P := fun s' => AllReady l.temps s' ∧ GradsHold l.ins s' (fun i J => g0 i J + l.G z asIdx env dy i J))
      fun s24 σ24 h24 f24 => Runs.nil ⟨fun T hT => l.all_ready h24.ready T (by simp [hT]), ?_⟩
    · rwa [List.append_nil] at this
    · have e : (fun i J => g0 i J + l.G z asIdx env dy i J) = fun i J => g0 i J + gOpt l.biasOut (fiberG [z.E, z.S, z.B] 0 dy) i J +
          (if i = l.w.value.id then combGW z.S z.B dy (l.headsOut z asIdx env) J else 0) + projG z.S z.B z.H z.D l.wv l.xv l.biasV env (l.dV z asIdx env dy) i J +
          projG z.S z.B z.H z.D l.wk l.xk l.biasK env (l.dK z asIdx env dy) i J + projG z.S z.B z.H z.D l.wq l.xq l.biasQ env (l.dQ z asIdx env dy) i J := by
        funext i J
        simp only [Attention.G, gOf]
        ring
      rw [e]
      exact h24.grads
  cases hm : l.mask with
  | none =>
    refine LSt.skip (mid s15 σ15 h15 ?_ fun _ _ => rfl)
    rw [eg15, Attention.dS, hm, attnMasked_none']
  | some T =>
    have mT := m12 T hm
    obtain ⟨T1, T2⟩ := fit.mask T hm
    have hT : T.LeadOf l.a.grad := ⟨by rw [T1, a3]; simp, by rw [T1, a3]; rfl, by rw [T2, T1, a4]; rfl⟩
    have hc := C21_mask_scalar (maskBool asIdx) (h15.value mT).1 (h15.ready .ag) (sep.vt _ mT .ag) hT 0 _ _ (h15.value mT).2 (h15.hold eg15)
    have hnd : ((l.tens l.y.grad .ag).ndim : Int) - (maskMoments T).value.ndim = 2 := by
      simp only [Tensor.ndim, Attention.tens, maskMoments, T1, a3]; rfl
    rw [hnd] at hc
    refine h15.step sep (i := .ag) (v := l.dS z asIdx env dy) (hc.congr ?_) (tm _ (by decide)) fun s16 h16 =>
      mid s16 _ h16 (Function.update_self ..) fun o ho => Function.update_of_ne ho ..
    intro I hI
    simp only [Attention.tens] at hI
    rw [a3] at hI
    obtain ⟨i, j, n, h, hi, hj, hn, hh, rfl⟩ := mem_box4 (mem_box.2 hI)
    simp only [Attention.dS, attnMasked, hm, maskAt, maskMoments, Tensor.ndim, T1]
    rfl

end
end NNTile
