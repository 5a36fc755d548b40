import Verif.Props.C50
import Verif.Lib.ReduxModel
import Verif.Lib.ReduxOptim
import Verif.Lib.ReduxTerm
import Verif.Props.C33
import Verif.Props.C40
import Verif.Props.C47
/-!
# C80: programs executed with replicas give the results of the sequential execution
-/
namespace NNTile

/-- Every step of every execution with replicas succeeds: there is no undefined behaviour and no exception, and no codelet is missing. -/
theorem C80_no_error {m : BaseModel ℝ} {L : List (CrossEntropy ℝ)} {s s' : Store ℝ} (H : ReduxNet m L s) {asIdx : ℝ → Int} {invalidate : Bool} {ts : List (Task1 ℝ)} (hp : ReduxProgram asIdx invalidate m L ts)
    (run : runAll1 ts s = .ok s') {σ : RState ℝ} (h : RReach ts (registered (netReductions m L)) s σ) {r : M (RState ℝ)} (e : RStep ts (registered (netReductions m L)) σ r) : ∃ σ', r = .ok σ' := by
  obtain ⟨h', hr⟩ := H.reach hp h
  obtain ⟨σ', e, -⟩ := (h'.inv (H.runG hp run)).step (H.runG hp run) (e.congr (H.codelets hp) hr)
  exact ⟨σ', e⟩

/-- When all tasks are done and all replicas are merged, all tiles have the contents which the sequential execution of the tasks gives. -/
theorem C80_result {m : BaseModel ℝ} {L : List (CrossEntropy ℝ)} {s s' : Store ℝ} (H : ReduxNet m L s) {asIdx : ℝ → Int} {invalidate : Bool} {ts : List (Task1 ℝ)} (hp : ReduxProgram asIdx invalidate m L ts)
    (run : runAll1 ts s = .ok s') {σ : RState ℝ} (h : RReach ts (registered (netReductions m L)) s σ) (hf : σ.Final ts) : σ.main = s' :=
  ((H.reach hp h).1.inv (H.runG hp run)).final (H.runG hp run) hf

/-- An execution never gets stuck: until the end there is a possible next step. -/
theorem C80_progress (ts : List (Task1 ℝ)) (R : Handle → ReduxCl ℝ) (σ : RState ℝ) : σ.Final ts ∨ ∃ r, RStep ts R σ r := σ.progress ts R

/-- An execution has an end: it has at most two steps per task, no matter which steps are chosen. -/
theorem C80_terminates {ts : List (Task1 ℝ)} {R : Handle → ReduxCl ℝ} {s : Store ℝ} {f : Nat → RState ℝ} (h0 : f 0 = ⟨s, fun _ => [], []⟩) {n : Nat}
    (h : ∀ i, i < n → RStep ts R (f i) (.ok (f (i + 1)))) : n ≤ 2 * ts.length := RStep.bounded h0 h

/-- Two executions with replicas agree. -/
theorem C80_executions_agree {m : BaseModel ℝ} {L : List (CrossEntropy ℝ)} {s s' : Store ℝ} (H : ReduxNet m L s) {asIdx : ℝ → Int} {invalidate : Bool} {ts : List (Task1 ℝ)} (hp : ReduxProgram asIdx invalidate m L ts)
    (run : runAll1 ts s = .ok s') {σ τ : RState ℝ} (h : RReach ts (registered (netReductions m L)) s σ) (hf : σ.Final ts) (h' : RReach ts (registered (netReductions m L)) s τ) (hf' : τ.Final ts) :
    σ.main = τ.main := (C80_result H hp run h hf).trans (C80_result H hp run h' hf').symm

theorem commuting_exec {t : Task1 ℝ} (h : t.codelet = "total_sum_accum" → t.mode = .RW) (s : Store ℝ) : t.commuting.toTask.exec s = t.toTask.exec s := by
  unfold Task1.commuting
  split
  · next e =>
    have h := h e
    obtain ⟨c, r, o, m, f⟩ := t
    simp only at h
    subst h
    rfl
  · rfl

/-- The sequential execution of the tasks of a loss does not depend on the mode in which the value is accessed. -/
theorem C80_loss_tasks {l : CrossEntropy ℝ} {asIdx : ℝ → Int} {ts : List (Task1 ℝ)} (e : l.calcAsync asIdx = .ok ts) (s : Store ℝ) :
    runAll1 (ts.map Task1.commuting) s = runAll1 ts s := by
  have h : ∀ t ∈ ts, t.codelet = "total_sum_accum" → t.mode = .RW := CrossEntropy.total_mode ts e
  clear e
  induction ts generalizing s with
  | nil => rfl
  | cons t ts ih =>
    change (t.commuting.toTask.exec s >>= fun s => runAll1 (ts.map Task1.commuting) s) = (t.toTask.exec s >>= fun s => runAll1 ts s)
    rw [commuting_exec (h t (by simp))]
    congr 1
    funext s'
    exact ih s' (fun u hu => h u (by simp [hu]))

theorem param_notPairs {m : BaseModel ℝ} {L : List (CrossEntropy ℝ)} {s : Store ℝ} (H : ReduxNet m L s) {q : Moments} (hq : ∃ l ∈ m.layers, q ∈ l.parameters) : NotPairs m L q.value ∧ NotPairs m L q.grad := by
  obtain ⟨l, hl, hq⟩ := hq
  have h : q ∈ l.inputs ++ l.output :: l.parameters := by simp [hq]
  constructor
  · exact H.notPairs hl (List.mem_append_left _ (List.mem_flatMap.2 ⟨q, h, by simp⟩))
  · exact H.notPairs hl (List.mem_append_left _ (List.mem_flatMap.2 ⟨q, h, by simp⟩))

/-- Steps of `SGD` on parameters of the model may be part of the program, if the velocities of the optimizer are no tensors of the model. -/
theorem C80_sgd {m : BaseModel ℝ} {L : List (CrossEntropy ℝ)} {s : Store ℝ} (H : ReduxNet m L s) {asIdx : ℝ → Int} {invalidate : Bool} {ts us : List (Task1 ℝ)} (hp : ReduxProgram asIdx invalidate m L ts)
    {o : SGD ℝ} {numIter : Nat} (params : ∀ q ∈ o.params, ∃ l ∈ m.layers, q ∈ l.parameters) (states : ∀ T ∈ o.states, ∀ p ∈ netReductions m L, T.id ≠ p.1.id) (e : o.stepAsync numIter = .ok us) :
    ReduxProgram asIdx invalidate m L (ts ++ us) :=
  .other hp (SGD.other (fun q hq => param_notPairs H (params q hq)) (fun T hT p hp _ => states T hT p hp) us e)

/-- The same for `Adam` and its moments. -/
theorem C80_adam {m : BaseModel ℝ} {L : List (CrossEntropy ℝ)} {s : Store ℝ} (H : ReduxNet m L s) {asIdx : ℝ → Int} {invalidate : Bool} {ts us : List (Task1 ℝ)} (hp : ReduxProgram asIdx invalidate m L ts)
    {o : Adam ℝ} {numIter : Nat} (params : ∀ q ∈ o.params, ∃ l ∈ m.layers, q ∈ l.parameters)
    (states : ∀ T ∈ o.firstMoments ++ o.secondMoments ++ o.maxSecondMoments, ∀ p ∈ netReductions m L, T.id ≠ p.1.id) (e : o.stepAsync numIter = .ok us) :
    ReduxProgram asIdx invalidate m L (ts ++ us) :=
  .other hp (Adam.other (fun q hq => param_notPairs H (params q hq)) (fun T hT p hp _ => states T hT p hp) us e)

/-- A model with one linear layer. -/
def reduxExample : BaseModel ℝ := BaseModel.init [linearExample.x] [.linear linearExample]

theorem reduxExample_mode {ts : List (Task1 ℝ)} (e : linearExample.forwardAsync = .ok ts) : ∃ t ∈ ts, t.mode = .REDUX := by
  have oA : Tensor.IsOp linearExample.x.value .trans [5] [7] [] [2] [3] [] := ⟨rfl, rfl, rfl, rfl, rfl⟩
  have oB : Tensor.IsOp linearExample.w.value .noTrans [7] [3] [] [3] [2] [] := ⟨rfl, rfl, rfl, rfl, rfl⟩
  have oC : Tensor.IsOp linearExample.y.value .noTrans [5] [3] [] [2] [2] [] := ⟨rfl, rfl, rfl, rfl, rfl⟩
  have g := gemmAsync_ok (α := ℝ) (nd := 1) (bt := 0) (by simp [Tensor.WF, linearExample]) (by simp [Tensor.WF, linearExample]) (by simp [Tensor.WF, linearExample]) oA oB oC rfl rfl 1 0 true
  generalize hg : (List.range linearExample.y.value.ntiles).flatMap _ = gs at g
  have g' : gemmAsync (α := ℝ) 1 .trans linearExample.x.value .noTrans linearExample.w.value 0 linearExample.y.value 1 0 true = .ok gs := g
  have hf : linearExample.forwardAsync (α := ℝ) = seqAsync [gemmAsync 1 .trans linearExample.x.value .noTrans linearExample.w.value 0 linearExample.y.value 1 0 true,
    addFiberAsync 1 ⟨6, [3], [2]⟩ 1 linearExample.y.value ((linearExample.y.value.ndim : Int) - 1) 0] := rfl
  rw [hf, seqAsync, g', M.bind_ok] at e
  obtain ⟨rest, -, e⟩ := M.bind_eq_ok.1 e
  obtain rfl := Except.ok.inj e
  subst hg
  refine ⟨_, List.mem_append_left _ (List.mem_flatMap.2 ⟨0, ?_, List.mem_flatMap.2 ⟨1, ?_, List.mem_singleton.2 rfl⟩⟩), ?_⟩
  · decide
  · decide
  · simp [gemmTask, submitGemm, task2, reduceMode]

/-- Forward propagation of the example meets the hypotheses, and there are tasks in reduction mode. -/
example (x w b x0 w0 b0 dy : List Nat → ℝ) : ∃ (s s' : Store ℝ) (ts : List (Task1 ℝ)), ReduxNet reduxExample [] s ∧ ReduxProgram (fun _ => 0) false reduxExample [] ts ∧ runAll1 ts s = .ok s' ∧
    ∃ t ∈ ts, t.mode = .REDUX := by
  have h := storeOf_spec [(linearExample.x.value, x), (linearExample.x.grad, x0), (linearExample.y.value, fun _ => 0), (linearExample.y.grad, dy),
    (linearExample.w.value, w), (linearExample.w.grad, w0), (⟨6, [3], [2]⟩, b), (⟨7, [3], [2]⟩, b0)]
    (by simp [linearExample, Tensor.WF]) (by simp [linearExample])
  generalize storeOf _ = s at h
  simp only [List.forall_mem_cons, List.not_mem_nil, IsEmpty.forall_iff, implies_true, and_true] at h
  obtain ⟨hx, hxg, hy, hyg, hw, hwg, hb, hbg⟩ := h
  obtain ⟨ts, s', e1, e2, e3, e4⟩ := C33_linear_forward linearExample_fits hx.1 hw.1 hy.1 (by rintro m ⟨⟩; exact ⟨hb.1, by decide⟩) (by decide) (by decide) x w b hx.2 hw.2
    (by rintro m ⟨⟩; exact hb.2)
  have k : ∀ p ∈ netReductions reduxExample [], p.2 = .add := by
    simp [netReductions, reduxExample, BaseModel.init, BaseModel.reductions, PyLayer.reductions, Linear.reductions, Moments.reductionGrad, linearExample]
  refine ⟨s, s', [] ++ (ts ++ []), ⟨?_, ?_, fun p hp q hq _ => (k p hp).trans (k q hq).symm, ?_⟩, ?_, ?_, ?_⟩
  · simp [reduxTensors, reduxExample, BaseModel.init, PyLayer.tensors, PyLayer.inputs, PyLayer.output, PyLayer.parameters, PyLayer.temporaries, linearExample]
    simp [Tensor.WF]
  · simp only [netReductions, reduxExample, BaseModel.init, BaseModel.reductions, PyLayer.reductions, Linear.reductions, Moments.reductionGrad, linearExample, List.flatMap_cons, List.flatMap_nil,
      if_true, List.cons_append, List.nil_append, List.append_nil, List.forall_mem_cons, List.not_mem_nil, IsEmpty.forall_iff, implies_true, and_true]
    exact ⟨hbg.1, hxg.1, hy.1, hwg.1⟩
  · intro p hp h; rw [k p hp] at h; cases h
  · refine .forward .nil ?_
    simp [reduxExample, BaseModel.init, BaseModel.forwardAsync, PyLayer.forwardAsync, seqAsync, e1]
  · simpa using e2
  · simpa using reduxExample_mode e1

/-- Optimizers of the weights of the linear layer. -/
example : ∃ (o : SGD ℝ) (o' : Adam ℝ), SGD.init [linearExample.w] (1/10 : ℝ) 20 (9/10) true 0 0 = .ok o ∧ Adam.init [linearExample.w] (1/10 : ℝ) 30 (9/10) (9/10) true 0 0 = .ok o' ∧
    (∀ q ∈ o.params, ∃ l ∈ reduxExample.layers, q ∈ l.parameters) ∧ (∀ T ∈ o.states, ∀ p ∈ netReductions reduxExample [], T.id ≠ p.1.id) ∧ o.states ≠ [] ∧
    (∀ q ∈ o'.params, ∃ l ∈ reduxExample.layers, q ∈ l.parameters) ∧
    (∀ T ∈ o'.firstMoments ++ o'.secondMoments ++ o'.maxSecondMoments, ∀ p ∈ netReductions reduxExample [], T.id ≠ p.1.id) := by
  have hl : ∀ q ∈ [linearExample.w], ∃ l ∈ reduxExample.layers, q ∈ (l : PyLayer ℝ).parameters := by
    intro q hq
    rw [List.mem_singleton.1 hq]
    exact ⟨.linear linearExample, by simp [reduxExample, BaseModel.init], by simp [PyLayer.parameters]⟩
  have hi : ∀ p ∈ netReductions reduxExample [], p.1.id < 20 := by
    simp [netReductions, reduxExample, BaseModel.init, BaseModel.reductions, PyLayer.reductions, Linear.reductions, Moments.reductionGrad, linearExample]
  have h1 : FP.ltb (0 : ℝ) (9/10) = true := by norm_num [FP.ltb]
  have hw : ∀ n, newTensor n linearExample.w.value.shape linearExample.w.value.basetile = .ok ⟨n, linearExample.w.value.shape, linearExample.w.value.basetile⟩ :=
    fun n => newTensor_ok (by simp [Tensor.WF, linearExample])
  refine ⟨_, _, by rw [SGD.init, h1, if_pos rfl, newStates, hw]; rfl, by rw [Adam.init, newMoments3]; simp only [hw]; rfl, hl, ?_, by simp, hl, ?_⟩
  · intro T hT p hp
    have := hi p hp
    simp only [List.mem_cons, List.not_mem_nil, or_false] at hT
    subst hT
    exact fun e => absurd (e ▸ this) (by decide)
  · intro T hT p hp
    have := hi p hp
    simp only [List.mem_cons, List.mem_append, List.not_mem_nil, or_false, List.nil_append, List.append_nil] at hT
    rcases hT with (rfl | rfl) | rfl <;> exact fun e => absurd (e ▸ this) (by decide)

/-- Self-attention with biases and a mask, as constructed with `redux = True`. -/
def reduxAttn : Attention ℝ :=
  let P (i : Nat) (S B : List Nat) : Moments := ⟨⟨i, S, B⟩, ⟨i + 1, S, B⟩, true⟩
  { xq := attnExampleX, xk := attnExampleX, xv := attnExampleX, y := P 39 [4, 3, 2] [2, 2, 1]
    wq := P 3 [2, 2, 4] [1, 2, 2], wk := P 7 [2, 2, 4] [1, 2, 2], wv := P 11 [2, 2, 4] [1, 2, 2], w := P 15 [4, 2, 2] [2, 1, 2]
    qT := P 17 [2, 2, 3, 2] [1, 2, 2, 1], q := P 19 [2, 3, 2, 2] [2, 2, 1, 1], kT := P 21 [2, 2, 3, 2] [1, 2, 2, 1], k := P 23 [2, 3, 2, 2] [2, 2, 1, 1]
    vT := P 25 [2, 2, 3, 2] [1, 2, 2, 1], v := P 27 [2, 3, 2, 2] [2, 2, 1, 1], a := P 29 [3, 3, 2, 2] [2, 2, 1, 1], aMaxsumexp := ⟨31, [2, 3, 2, 2], [2, 2, 1, 1]⟩
    aSumprodSlice := ⟨32, [3, 2, 2], [2, 1, 1]⟩, b := P 33 [2, 3, 2, 2] [2, 2, 1, 1], bT := P 35 [2, 2, 3, 2] [1, 2, 2, 1]
    biasQ := some (P 5 [2, 2] [2, 1]), biasK := some (P 9 [2, 2] [2, 1]), biasV := some (P 13 [2, 2] [2, 1]), biasOut := some (P 37 [4] [2])
    nHead := 2, headSize := 2, mask := some attnExampleMask, val := -10, redux := true }

example : Attention.generate attnExampleX attnExampleX attnExampleX 2 1 3 true (some attnExampleMask) (-10) true = .ok reduxAttn := by
  simp [Attention.generate, attnExampleX, attnExampleMask, newTensor, newPair, newPairIf, Tensor.WF, throwIf, Pos, pyIndex, pyDrop, Attention.init, reduxAttn]

theorem storeOf_zero (l : List Tensor) (h : Handle) (k : Nat) {v : ℝ} (e : (storeOf (l.map (fun T => (T, fun _ => (0 : ℝ)))) h).data k = some v) : v = 0 := by
  induction l with
  | nil => simp [storeOf, Buf.undef] at e
  | cons T l ih =>
    simp only [List.map_cons, storeOf] at e
    split at e
    · simpa using e.symm
    · exact ih e

theorem reduxAttn_reductions : reduxAttn.reductions = [(⟨6, [2, 2], [2, 1]⟩, .add), (⟨10, [2, 2], [2, 1]⟩, .add), (⟨14, [2, 2], [2, 1]⟩, .add), (⟨38, [4], [2]⟩, .add), (⟨1, [4, 3, 2], [2, 2, 1]⟩, .add), (⟨1, [4, 3, 2], [2, 2, 1]⟩, .add), (⟨1, [4, 3, 2], [2, 2, 1]⟩, .add), (⟨39, [4, 3, 2], [2, 2, 1]⟩, .add), (⟨4, [2, 2, 4], [1, 2, 2]⟩, .add), (⟨8, [2, 2, 4], [1, 2, 2]⟩, .add), (⟨12, [2, 2, 4], [1, 2, 2]⟩, .add), (⟨16, [4, 2, 2], [2, 1, 2]⟩, .add), (⟨17, [2, 2, 3, 2], [1, 2, 2, 1]⟩, .add), (⟨20, [2, 3, 2, 2], [2, 2, 1, 1]⟩, .add), (⟨21, [2, 2, 3, 2], [1, 2, 2, 1]⟩, .add), (⟨24, [2, 3, 2, 2], [2, 2, 1, 1]⟩, .add), (⟨25, [2, 2, 3, 2], [1, 2, 2, 1]⟩, .add), (⟨28, [2, 3, 2, 2], [2, 2, 1, 1]⟩, .add), (⟨29, [3, 3, 2, 2], [2, 2, 1, 1]⟩, .add), (⟨30, [3, 3, 2, 2], [2, 2, 1, 1]⟩, .add), (⟨31, [2, 3, 2, 2], [2, 2, 1, 1]⟩, .maxsumexp), (⟨32, [3, 2, 2], [2, 1, 1]⟩, .add), (⟨33, [2, 3, 2, 2], [2, 2, 1, 1]⟩, .add), (⟨36, [2, 2, 3, 2], [1, 2, 2, 1]⟩, .add)] := rfl

/-- Pairs of maxima and sums are accumulated as well. -/
example : ∃ s : Store ℝ, ReduxNet (BaseModel.init [attnExampleX] [.attention reduxAttn]) [] s := by
  have er : netReductions (BaseModel.init (α := ℝ) [attnExampleX] [.attention reduxAttn]) [] = reduxAttn.reductions := by
    simp [netReductions, BaseModel.init, BaseModel.reductions, PyLayer.reductions]
  have et : reduxTensors (BaseModel.init (α := ℝ) [attnExampleX] [.attention reduxAttn]) [] = (PyLayer.attention reduxAttn).tensors := by simp [reduxTensors, BaseModel.init]
  have ep : ∀ p ∈ reduxAttn.reductions, p.2 = .maxsumexp → p.1.id = 31 := by rw [reduxAttn_reductions]; decide
  have em : ∀ p ∈ reduxAttn.reductions, p.1 ∈ (reduxAttn.reductions.take 5 ++ reduxAttn.reductions.drop 7).map (·.1) := by rw [reduxAttn_reductions]; decide
  have ew : ∀ p ∈ (reduxAttn.reductions.take 5 ++ reduxAttn.reductions.drop 7).map (·.1), p.WF := by rw [reduxAttn_reductions]; unfold Tensor.WF Pos; decide
  have ei : (((reduxAttn.reductions.take 5 ++ reduxAttn.reductions.drop 7).map (·.1)).map Tensor.id).Nodup := by rw [reduxAttn_reductions]; decide
  generalize (reduxAttn.reductions.take 5 ++ reduxAttn.reductions.drop 7).map (·.1) = L at em ew ei
  have h := storeOf_spec (α := ℝ) (L.map (fun T => (T, fun _ => 0))) (by simpa using ew) (by rw [List.map_map]; exact ei)
  refine ⟨storeOf (L.map (fun T => (T, fun _ => 0))), ⟨?_, ?_, ?_, ?_⟩⟩
  · rw [et]
    have : (PyLayer.attention reduxAttn).tensors.all (fun T => decide T.WF) = true := by unfold Tensor.WF Pos; rfl
    simpa using this
  · rw [er]
    exact fun p hp => (h _ (List.mem_map_of_mem (em p hp))).1
  · rw [er, reduxAttn_reductions]; decide
  · rw [er]
    intro p hp e
    rw [ep p hp e]
    refine ⟨?_, fun i j v e => (storeOf_zero _ _ _ e).ge⟩
    rw [et]
    have : (PyLayer.attention reduxAttn).tensors.all (fun T => decide (T.id ≠ 31)) = true := rfl
    simpa using this

/-- The same with FlashAttention and even tiles, as constructed with `redux = True`. -/
def reduxFlash : Attention ℝ :=
  let P (i : Nat) (S B : List Nat) : Moments := ⟨⟨i, S, B⟩, ⟨i + 1, S, B⟩, true⟩
  { xq := flashExampleX, xk := flashExampleX, xv := flashExampleX, y := P 39 [4, 4, 2] [2, 2, 1]
    wq := P 3 [2, 2, 4] [1, 2, 2], wk := P 7 [2, 2, 4] [1, 2, 2], wv := P 11 [2, 2, 4] [1, 2, 2], w := P 15 [4, 2, 2] [2, 1, 2]
    qT := P 17 [2, 2, 4, 2] [1, 2, 2, 1], q := P 19 [2, 4, 2, 2] [2, 2, 1, 1], kT := P 21 [2, 2, 4, 2] [1, 2, 2, 1], k := P 23 [2, 4, 2, 2] [2, 2, 1, 1]
    vT := P 25 [2, 2, 4, 2] [1, 2, 2, 1], v := P 27 [2, 4, 2, 2] [2, 2, 1, 1], a := P 29 [4, 4, 2, 2] [2, 2, 1, 1], aMaxsumexp := ⟨31, [2, 4, 2, 2], [2, 2, 1, 1]⟩
    aSumprodSlice := ⟨32, [4, 2, 2], [2, 1, 1]⟩, b := P 33 [2, 4, 2, 2] [2, 2, 1, 1], bT := P 35 [2, 2, 4, 2] [1, 2, 2, 1]
    biasQ := some (P 5 [2, 2] [2, 1]), biasK := some (P 9 [2, 2] [2, 1]), biasV := some (P 13 [2, 2] [2, 1]), biasOut := some (P 37 [4] [2])
    nHead := 2, headSize := 2, mask := some flashExampleMask, val := -10, redux := true }

example : Attention.flashGenerate flashExampleX flashExampleX flashExampleX 2 1 3 true (some flashExampleMask) (-10) true = .ok reduxFlash := by
  have h : Attention.generate flashExampleX flashExampleX flashExampleX 2 1 3 true (some flashExampleMask) (-10) true = .ok reduxFlash := by
    simp [Attention.generate, flashExampleX, flashExampleMask, newTensor, newPair, newPairIf, Tensor.WF, throwIf, Pos, pyIndex, pyDrop, Attention.init, reduxFlash]
  rw [Attention.flashGenerate, h]
  rfl

theorem reduxFlash_reductions : reduxFlash.reductions = [(⟨6, [2, 2], [2, 1]⟩, .add), (⟨10, [2, 2], [2, 1]⟩, .add), (⟨14, [2, 2], [2, 1]⟩, .add), (⟨38, [4], [2]⟩, .add), (⟨1, [4, 4, 2], [2, 2, 1]⟩, .add), (⟨1, [4, 4, 2], [2, 2, 1]⟩, .add), (⟨1, [4, 4, 2], [2, 2, 1]⟩, .add), (⟨39, [4, 4, 2], [2, 2, 1]⟩, .add), (⟨4, [2, 2, 4], [1, 2, 2]⟩, .add), (⟨8, [2, 2, 4], [1, 2, 2]⟩, .add), (⟨12, [2, 2, 4], [1, 2, 2]⟩, .add), (⟨16, [4, 2, 2], [2, 1, 2]⟩, .add), (⟨17, [2, 2, 4, 2], [1, 2, 2, 1]⟩, .add), (⟨20, [2, 4, 2, 2], [2, 2, 1, 1]⟩, .add), (⟨21, [2, 2, 4, 2], [1, 2, 2, 1]⟩, .add), (⟨24, [2, 4, 2, 2], [2, 2, 1, 1]⟩, .add), (⟨25, [2, 2, 4, 2], [1, 2, 2, 1]⟩, .add), (⟨28, [2, 4, 2, 2], [2, 2, 1, 1]⟩, .add), (⟨29, [4, 4, 2, 2], [2, 2, 1, 1]⟩, .add), (⟨30, [4, 4, 2, 2], [2, 2, 1, 1]⟩, .add), (⟨31, [2, 4, 2, 2], [2, 2, 1, 1]⟩, .maxsumexp), (⟨32, [4, 2, 2], [2, 1, 1]⟩, .add), (⟨33, [2, 4, 2, 2], [2, 2, 1, 1]⟩, .add), (⟨36, [2, 2, 4, 2], [1, 2, 2, 1]⟩, .add)] := rfl

/-- The same for FlashAttention. -/
example : ∃ s : Store ℝ, ReduxNet (BaseModel.init [flashExampleX] [.flash reduxFlash]) [] s := by
  have er : netReductions (BaseModel.init (α := ℝ) [flashExampleX] [.flash reduxFlash]) [] = reduxFlash.reductions := by
    simp [netReductions, BaseModel.init, BaseModel.reductions, PyLayer.reductions]
  have et : reduxTensors (BaseModel.init (α := ℝ) [flashExampleX] [.flash reduxFlash]) [] = (PyLayer.flash reduxFlash).tensors := by simp [reduxTensors, BaseModel.init]
  have ep : ∀ p ∈ reduxFlash.reductions, p.2 = .maxsumexp → p.1.id = 31 := by rw [reduxFlash_reductions]; decide
  have em : ∀ p ∈ reduxFlash.reductions, p.1 ∈ (reduxFlash.reductions.take 5 ++ reduxFlash.reductions.drop 7).map (·.1) := by rw [reduxFlash_reductions]; decide
  have ew : ∀ p ∈ (reduxFlash.reductions.take 5 ++ reduxFlash.reductions.drop 7).map (·.1), p.WF := by rw [reduxFlash_reductions]; unfold Tensor.WF Pos; decide
  have ei : (((reduxFlash.reductions.take 5 ++ reduxFlash.reductions.drop 7).map (·.1)).map Tensor.id).Nodup := by rw [reduxFlash_reductions]; decide
  generalize (reduxFlash.reductions.take 5 ++ reduxFlash.reductions.drop 7).map (·.1) = L at em ew ei
  have h := storeOf_spec (α := ℝ) (L.map (fun T => (T, fun _ => 0))) (by simpa using ew) (by rw [List.map_map]; exact ei)
  refine ⟨storeOf (L.map (fun T => (T, fun _ => 0))), ⟨?_, ?_, ?_, ?_⟩⟩
  · rw [et]
    have : (PyLayer.flash reduxFlash).tensors.all (fun T => decide T.WF) = true := by unfold Tensor.WF Pos; rfl
    simpa using this
  · rw [er]
    exact fun p hp => (h _ (List.mem_map_of_mem (em p hp))).1
  · rw [er, reduxFlash_reductions]; decide
  · rw [er]
    intro p hp e
    rw [ep p hp e]
    refine ⟨?_, fun i j v e => (storeOf_zero _ _ _ e).ge⟩
    rw [et]
    have : (PyLayer.flash reduxFlash).tensors.all (fun T => decide (T.id ≠ 31)) = true := rfl
    simpa using this

/-- Two calculations of a loss whose values are added up in two tiles. -/
example (X Y : List Nat → ℝ) (v : ℝ) : ∃ (l : CrossEntropy ℝ) (s s' : Store ℝ) (ts : List (Task1 ℝ)), l.modelOutput.value.ntiles = 2 ∧ l.redux = true ∧ ReduxNet (BaseModel.init [] []) [l] s ∧
    ReduxProgram (fun _ => 3) false (BaseModel.init [] []) [l] ts ∧ runAll1 ts s = .ok s' := by
  obtain ⟨l, h0, h1, h1', -, h2, h3⟩ := C40_cross_entropy_generate (out := ⟨⟨0, [5, 3, 2], [5, 2, 2]⟩, ⟨1, [5, 3, 2], [5, 2, 2]⟩, true⟩) ⟨rfl, rfl⟩ (by decide) ⟨rfl, rfl⟩
    (by decide) (next := 2) (by decide) true (1 : ℝ)
  have h := storeOf_spec [(l.maxsumexp, fun _ => (0 : ℝ)), (l.modelOutput.value, X), (l.modelOutput.grad, X), (l.y, Y), (l.val, fun _ => v), (l.logsumexp, X)]
    (by
      simp only [List.forall_mem_cons, List.not_mem_nil, IsEmpty.forall_iff, implies_true, and_true] at h3 ⊢
      rw [h1]
      exact ⟨h3.2.2.1.1, by decide, by decide, h3.1.1, h3.2.1.1, h3.2.2.2.1⟩)
    (by
      have := h2.ids
      simp only [List.map_cons, List.map_nil, List.nodup_cons, List.mem_cons, List.not_mem_nil, or_false, not_or, List.nodup_nil, and_true, not_false_eq_true] at this ⊢
      obtain ⟨⟨a1, a2, a3, a4, a5⟩, ⟨b2, b3, b4, b5⟩, ⟨c3, c4, c5⟩, ⟨d4, d5⟩, e5⟩ := this
      exact ⟨⟨Ne.symm a4, Ne.symm b4, Ne.symm c4, Ne.symm d4, e5⟩, ⟨a1, a2, a3, a5⟩, ⟨b2, b3, b5⟩, ⟨c3, c5⟩, d5⟩)
  have hz : ∀ i j w, (storeOf [(l.maxsumexp, fun _ => (0 : ℝ)), (l.modelOutput.value, X), (l.modelOutput.grad, X), (l.y, Y), (l.val, fun _ => v), (l.logsumexp, X)] (l.maxsumexp.id, i)).data j = some w →
      0 ≤ w := by
    intro i j w e
    simp only [storeOf, if_true] at e
    exact (Option.some.inj e).le
  generalize storeOf _ = s at h hz
  simp only [List.forall_mem_cons, List.not_mem_nil, IsEmpty.forall_iff, implies_true, and_true] at h
  obtain ⟨g1, g2, g3, g4, g5, g6⟩ := h
  obtain ⟨ts, s', e1, e2, -⟩ := C40_cross_entropy h2 (fun _ => 3) (s := s) (X := X) (Y := Y) (v := v) (by
    simp only [List.forall_mem_cons, List.not_mem_nil, IsEmpty.forall_iff, implies_true, and_true]
    exact ⟨g2.1, g4.1, g5.1, g1.1, g6.1⟩) (fun _ => g3.1) g2.2 g4.2 (fun _ _ => by norm_num) g5.2
  have hid := h2.ids
  simp only [List.map_cons, List.map_nil, List.nodup_cons, List.mem_cons, List.not_mem_nil, or_false, not_or, List.nodup_nil, and_true, not_false_eq_true] at hid
  have er : netReductions (BaseModel.init (α := ℝ) [] []) [l] = [(l.val, .add), (l.maxsumexp, .maxsumexp)] := by simp [netReductions, BaseModel.init, BaseModel.reductions, CrossEntropy.reductions]
  have et : reduxTensors (BaseModel.init (α := ℝ) [] []) [l] = [l.modelOutput.value, l.modelOutput.grad, l.logsumexp, l.val] := by simp [reduxTensors, BaseModel.init, CrossEntropy.tensors]
  refine ⟨l, s, s', [] ++ ts.map Task1.commuting, by rw [h1]; rfl, h1', ⟨?_, ?_, ?_, ?_⟩, .loss .nil (by simp) e1, (C80_loss_tasks e1 s).trans e2⟩
  · rw [et]
    simp only [List.forall_mem_cons, List.not_mem_nil, IsEmpty.forall_iff, implies_true, and_true]
    exact ⟨g2.1.1, g3.1.1, g6.1.1, g5.1.1⟩
  · rw [er]
    simp only [List.forall_mem_cons, List.not_mem_nil, IsEmpty.forall_iff, implies_true, and_true]
    exact ⟨g5.1, g1.1⟩
  · rw [er]
    have a := hid.2.2.2.1.1
    simp only [List.forall_mem_cons, List.not_mem_nil, IsEmpty.forall_iff, implies_true, and_true]
    exact ⟨⟨trivial, fun e => absurd e a⟩, fun e => absurd e.symm a⟩
  · rw [er, et]
    simp only [List.forall_mem_cons, List.not_mem_nil, IsEmpty.forall_iff, implies_true, and_true]
    refine ⟨fun e => (by cases e), fun _ => ⟨⟨hid.1.2.2.2.1, hid.2.1.2.2.1, fun e => hid.2.2.2.2 e.symm, hid.2.2.2.1.1⟩, fun i j w => hz i _ w⟩⟩

end NNTile
