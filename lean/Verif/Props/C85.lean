import Verif.Model.TrainRuntime
import Verif.Props.C45
import Verif.Props.C83
/-!
# C85: training while workers execute tasks
-/
namespace NNTile
variable {α : Type} [FP α]

private theorem forN_foldlM {σ β : Type} (f : σ → β → M σ) (xs : List β) (n : Nat) (st : σ) :
    forN n (fun _ st => xs.foldlM f st) st = ((List.replicate n xs).flatten).foldlM f st := by
  induction n with
  | zero => rfl
  | succ n ih => rw [forN_succ, ih, List.replicate_succ', List.flatten_append, List.foldlM_append]; simp

/-- One batch of the sequential loop. -/
private theorem trainBatch_inv {p : Pipeline α} {asIdx : α → Int} {invalidate : Bool} {tmpId : Nat} {l : CrossEntropy α} (hl : p.loss = .crossEntropy l) (hval : l.val.shape = []) {st st' : TrainState α}
    {b : List Tensor × List Tensor} (h : p.trainBatch asIdx invalidate tmpId st b = .ok st') :
    ∃ ts, p.batch asIdx invalidate st.steps b = .ok ts ∧ runAll ts st.store = .ok st'.store ∧ st'.steps = st.steps + 1 ∧
      ∃ v, (st'.store (p.loss.val.id, 0)).data 0 = some v ∧ st'.lossHist = st.lossHist ++ [v] := by
  unfold Pipeline.trainBatch at h
  obtain ⟨ts, e1, h⟩ := M.bind_eq_ok.1 h
  obtain ⟨s, e2, h⟩ := M.bind_eq_ok.1 h
  obtain ⟨r, e3, h⟩ := M.bind_eq_ok.1 h
  obtain ⟨v, e4, h⟩ := M.bind_eq_ok.1 h
  cases h
  rw [hl] at e3 ⊢
  simp only [PyLoss.getVal, toArray, Tensor.ndim, hval, List.length_nil, if_true] at e3
  obtain ⟨_, -, e3⟩ := M.bind_eq_ok.1 e3
  obtain ⟨hd, e5, e3⟩ := M.bind_eq_ok.1 e3
  obtain ⟨bf, e6, e3⟩ := M.bind_eq_ok.1 e3
  cases e3
  have ehd : hd = (l.val.id, 0) := by
    unfold Tensor.handleL at e5
    split at e5
    · exact (Except.ok.inj e5).symm
    · cases e5
  subst ehd
  refine ⟨ts, e1, e2, rfl, v, ?_, rfl⟩
  unfold memcpyElems at e6
  split at e6
  · have := Except.ok.inj e6
    subst this
    unfold Buf.rd at e4
    split at e4
    · simp only [Nat.lt_one_iff, if_true] at e4
      show (s (l.val.id, 0)).data 0 = some v
      cases hq : (s (l.val.id, 0)).data 0 with
      | none => rw [hq] at e4; cases e4
      | some w => rw [hq] at e4; cases e4; rfl
    · cases e4
  · cases e6

private theorem train_main {p : Pipeline α} {asIdx : α → Int} {invalidate : Bool} {tmpId : Nat} {l : CrossEntropy α} (hl : p.loss = .crossEntropy l) (hval : l.val.shape = [])
    (bs : List ((List Tensor × List Tensor) × Buf α)) : ∀ {st st' : TrainState α}, (bs.map Prod.fst).foldlM (p.trainBatch asIdx invalidate tmpId) st = .ok st' →
    ∃ main, p.trainMain asIdx invalidate st.steps bs = .ok main ∧ Orderly [] main ∧ seqStore main st.store = .ok st'.store ∧ (∀ e ∈ main, e ≠ .pause) ∧
      (ReadsRight main st.store → ∃ vs, st'.lossHist = st.lossHist ++ vs ∧ bs.map (fun b => b.2.data 0) = vs.map some) := by
  induction bs with
  | nil =>
    intro st st' h
    cases h
    exact ⟨[], rfl, trivial, rfl, by simp, fun _ => ⟨[], by simp, rfl⟩⟩
  | cons b bs ih =>
    intro st st' h
    rw [List.map_cons, List.foldlM_cons] at h
    obtain ⟨st1, e1, h⟩ := M.bind_eq_ok.1 h
    obtain ⟨ts, q1, q2, q3, v, q4, q5⟩ := trainBatch_inv hl hval e1
    obtain ⟨ms, g1, g2, g3, g4, g5⟩ := ih h
    rw [q3] at g1
    refine ⟨asyncOp ts ++ [.acquire (p.loss.val.id, 0) .R, .peek (p.loss.val.id, 0) b.2, .release (p.loss.val.id, 0) .R] ++ ms, ?_, ?_, ?_, ?_, ?_⟩
    · rw [Pipeline.trainMain, Pipeline.batchMain, q1, M.bind_ok, M.bind_ok, g1, M.bind_ok]
    · rw [List.append_assoc]
      refine orderly_async ts ?_
      simpa [Orderly] using g2
    · rw [List.append_assoc, seqStore_append, seqStore_async, q2, M.bind_ok]
      exact g3
    · intro e he
      simp only [asyncOp, List.mem_append, List.mem_map, List.mem_cons, List.not_mem_nil, or_false] at he
      rcases he with (⟨t, -, rfl⟩ | rfl | rfl | rfl) | he
      · simp
      · simp
      · simp
      · simp
      · exact g4 e he
    · intro hr
      rw [List.append_assoc] at hr
      have h1 := readsRight_async hr q2
      obtain ⟨h2, h3⟩ : b.2 = st1.store (p.loss.val.id, 0) ∧ ReadsRight ms st1.store := h1
      obtain ⟨vs, k1, k2⟩ := g5 h3
      refine ⟨v :: vs, by rw [k1, q5]; simp, ?_⟩
      rw [List.map_cons, List.map_cons, k2, h2, q4]

/-- **Training beside the workers.** If the loop of `C44`, which executes every task at its submission, ends, then for every interleaving of the main thread and the workers: no task fails, the losses which
the program reads are those of that loop, and when no task is left all data is the same. -/
theorem C85_training {p : Pipeline α} {asIdx : α → Int} {invalidate : Bool} {tmpId : Nat} {l : CrossEntropy α} (hl : p.loss = .crossEntropy l) (hval : l.val.shape = []) {s : Store α} {k : Nat}
    {st : TrainState α} (hseq : p.trainAsync asIdx invalidate tmpId ⟨s, k, []⟩ = .ok st) {bs : List ((List Tensor × List Tensor) × Buf α)}
    (hbs : bs.map Prod.fst = (List.replicate p.nEpochs (p.x.zip p.y)).flatten) {es : List (RtEvent α)} (he : p.trainMain asIdx invalidate k bs = .ok (mainOf es)) {o : M (Rt α)}
    (h : Rt.Run (.init s) es o) : ∃ r, o = .ok r ∧ bs.map (fun b => b.2.data 0) = st.lossHist.map some ∧ (r.pending = [] → r.store = st.store) := by
  rw [Pipeline.trainAsync, forN_foldlM, ← hbs] at hseq
  obtain ⟨main, g1, g2, g3, -, g5⟩ := train_main hl hval bs hseq
  rw [he] at g1
  have hm : mainOf es = main := Except.ok.inj g1
  have hr := C83_reads g3 g2 hm h
  obtain ⟨r, e, hk⟩ := C83_any_moment g3 g2 hm h
  obtain ⟨vs, k1, k2⟩ := g5 hr
  refine ⟨r, e, ?_, fun hp => funext fun k => hk k (by simp [hp])⟩
  rw [k1, k2]
  rfl

private theorem run_exists {p : Pipeline α} {asIdx : α → Int} {invalidate : Bool} {tmpId : Nat} {l : CrossEntropy α} (hl : p.loss = .crossEntropy l) (hval : l.val.shape = [])
    (batches : List (List Tensor × List Tensor)) : ∀ {st st' : TrainState α}, batches.foldlM (p.trainBatch asIdx invalidate tmpId) st = .ok st' →
    ∃ (bs : List ((List Tensor × List Tensor) × Buf α)) (es : List (RtEvent α)), bs.map Prod.fst = batches ∧ p.trainMain asIdx invalidate st.steps bs = .ok (mainOf es) ∧
      Rt.Run (.init st.store) es (.ok (.init st'.store)) := by
  induction batches with
  | nil =>
    intro st st' h
    cases h
    exact ⟨[], [], rfl, rfl, .nil _⟩
  | cons b batches ih =>
    intro st st' h
    rw [List.foldlM_cons] at h
    obtain ⟨st1, e1, h⟩ := M.bind_eq_ok.1 h
    obtain ⟨ts, q1, q2, q3, -⟩ := trainBatch_inv hl hval e1
    obtain ⟨bs, es, g1, g2, g3⟩ := ih h
    rw [q3] at g2
    have r1 := Rt.Run.submits (.init st.store) ts
    have hI : Rt.Inv { Rt.init st.store with pending := (Rt.init st.store).pending ++ ts } st1.store := ⟨q2, by simp [Rt.init]⟩
    have r2 := r1.append_ok (hI.drain rfl)
    have r3 : Rt.Run (.init st1.store) [.acquire (p.loss.val.id, 0) .R, .peek (p.loss.val.id, 0) (st1.store (p.loss.val.id, 0)), .release (p.loss.val.id, 0) .R] (.ok (.init st1.store)) := by
      refine .cons (r' := ⟨st1.store, [], [((p.loss.val.id, 0), .R)], false⟩) (.acquire _ _ (by simp [Rt.init]) (by simp [Rt.init])) ?_
      refine .cons (.peek _ _ ⟨.R, List.mem_cons_self ..⟩ rfl) ?_
      refine .cons (r' := .init st1.store) ?_ (.nil _)
      have := Rt.Next.release (r := ⟨st1.store, [], [((p.loss.val.id, 0), .R)], false⟩) (p.loss.val.id, 0) .R (List.mem_cons_self ..)
      simpa [Rt.init] using this
    refine ⟨(b, st1.store (p.loss.val.id, 0)) :: bs, _, by rw [List.map_cons, g1], ?_, (r2.append_ok r3).append_ok g3⟩
    rw [Pipeline.trainMain, Pipeline.batchMain, q1, M.bind_ok, M.bind_ok, g2, M.bind_ok]
    congr 1
    simp only [mainOf, List.filter_append]
    congr 1
    rw [List.filter_eq_self.2 (fun e he => ?_), List.filter_eq_nil_iff.2 (fun e he => ?_), List.append_nil]
    · rfl
    · rw [List.eq_of_mem_replicate he]
      simp [RtEvent.isWorker]
    · simp only [asyncOp, List.mem_map] at he
      obtain ⟨t, -, rfl⟩ := he
      rfl

/-- There is such a history, to the end: the hypotheses of the theorems about histories are met whenever the loop of `C44` ends. -/
theorem C85_history {p : Pipeline α} {asIdx : α → Int} {invalidate : Bool} {tmpId : Nat} {l : CrossEntropy α} (hl : p.loss = .crossEntropy l) (hval : l.val.shape = []) {s : Store α} {k : Nat}
    {st : TrainState α} (hseq : p.trainAsync asIdx invalidate tmpId ⟨s, k, []⟩ = .ok st) : ∃ (bs : List ((List Tensor × List Tensor) × Buf α)) (es : List (RtEvent α)) (r : Rt α),
    bs.map Prod.fst = (List.replicate p.nEpochs (p.x.zip p.y)).flatten ∧ p.trainMain asIdx invalidate k bs = .ok (mainOf es) ∧ Rt.Run (.init s) es (.ok r) ∧ r.pending = [] := by
  rw [Pipeline.trainAsync, forN_foldlM] at hseq
  obtain ⟨bs, es, h1, h2, h3⟩ := run_exists hl hval _ hseq
  exact ⟨bs, es, _, h1, h2, h3, rfl⟩

/-- **Training ends.** The loop does not come to a stop: at any moment, if the workers go on, all tasks submitted so far are executed (so that the value of the loss can be read), and workers cannot go on for
longer than there are tasks. -/
theorem C85_progress {p : Pipeline α} {asIdx : α → Int} {invalidate : Bool} {tmpId : Nat} {l : CrossEntropy α} (hl : p.loss = .crossEntropy l) (hval : l.val.shape = []) {s : Store α} {k : Nat}
    {st : TrainState α} (hseq : p.trainAsync asIdx invalidate tmpId ⟨s, k, []⟩ = .ok st) {bs : List ((List Tensor × List Tensor) × Buf α)}
    (hbs : bs.map Prod.fst = (List.replicate p.nEpochs (p.x.zip p.y)).flatten) {main rest : List (RtEvent α)} (hm : p.trainMain asIdx invalidate k bs = .ok (main ++ rest))
    {es : List (RtEvent α)} (he : mainOf es = main) {r : Rt α} (h : Rt.Run (.init s) es (.ok r)) :
    (∃ r', Rt.Run r (List.replicate r.pending.length (.finish 0) ++ [.waitAll]) (.ok r')) ∧
    ∀ fs r', (∀ e ∈ fs, e.isWorker = true) → Rt.Run r fs (.ok r') → r'.pending.length + fs.length = r.pending.length := by
  rw [Pipeline.trainAsync, forN_foldlM, ← hbs] at hseq
  obtain ⟨main', g1, g2, g3, g4, -⟩ := train_main hl hval bs hseq
  rw [hm] at g1
  cases Except.ok.inj g1
  rw [seqStore_append] at g3
  obtain ⟨s1, g3, -⟩ := M.bind_eq_ok.1 g3
  obtain ⟨h1, -, h3⟩ := C83_progress g3 g2.prefix he h (pausedAfter_none fun e he => g4 e (by simp [he]))
  exact ⟨h1, h3⟩

variable {p : Pipeline ℝ} {asIdx : ℝ → Int} {invalidate : Bool} {given acts : List Moments} {a0 : Moments} {layers : List (PyLayer ℝ)}

/-- **Training by gradients, beside the workers** (`C44` for every interleaving). The pipeline fits together as in `C44`; then the losses which the program reads are the losses of the batches in turn, each before
the step of the optimizer for it; and when no task is left, the parameters and the states of the optimizer are those of the update rule with the gradient of the loss of each batch. -/
theorem C85_gradient_training (fit : p.Fits asIdx invalidate given a0 acts layers) {l : CrossEntropy ℝ} (hl : p.loss = .crossEntropy l)
    {D : Env} {k : Nat} {pt : TrainPoint (p.opt.toNet invalidate).rule} {s : Store ℝ} (hs : p.State asIdx invalidate given a0 layers D k pt s)
    (hv : TrainValid (netOf asIdx invalidate layers) (p.loss.toNet asIdx) a0.value.id (p.opt.toNet invalidate).rule
      ((p.opt.toNet invalidate).params.map fun m => m.value.id) k ((List.replicate p.nEpochs ((p.x.zip p.y).map (samples D))).flatten) pt)
    {bs : List ((List Tensor × List Tensor) × Buf ℝ)} (hbs : bs.map Prod.fst = (List.replicate p.nEpochs (p.x.zip p.y)).flatten) :
    ∃ main, p.trainMain asIdx invalidate k bs = .ok main ∧ ∀ es o, mainOf es = main → Rt.Run (.init s) es o → ∃ r, o = .ok r ∧
      bs.map (fun b => b.2.data 0) = (trainRun (netOf asIdx invalidate layers) (p.loss.toNet asIdx) a0.value.id (p.opt.toNet invalidate).rule
        ((p.opt.toNet invalidate).params.map fun m => m.value.id) k ((List.replicate p.nEpochs ((p.x.zip p.y).map (samples D))).flatten) pt).2.map some ∧
      (r.pending = [] → p.State asIdx invalidate given a0 layers D (k + p.nEpochs * (p.x.zip p.y).length)
        (trainRun (netOf asIdx invalidate layers) (p.loss.toNet asIdx) a0.value.id (p.opt.toNet invalidate).rule
          ((p.opt.toNet invalidate).params.map fun m => m.value.id) k ((List.replicate p.nEpochs ((p.x.zip p.y).map (samples D))).flatten) pt).1 r.store) := by
  have hval : l.val.shape = [] := by
    have := fit.loss
    rw [hl] at this
    obtain ⟨⟨n, h⟩, -⟩ := this
    exact h.val
  obtain ⟨st, e, h1, h2, h3⟩ := C44_train fit hl (tmpId := p.loss.val.id + 1) (by omega) hs hv
  have e' := e
  rw [Pipeline.trainAsync, forN_foldlM, ← hbs] at e'
  obtain ⟨main, g1, -⟩ := train_main hl hval bs e'
  refine ⟨main, g1, fun es o hm hr => ?_⟩
  obtain ⟨r, q1, q2, q3⟩ := C85_training hl hval e hbs (by rw [hm]; exact g1) hr
  refine ⟨r, q1, ?_, fun hp => ?_⟩
  · rw [q2, h2]
  · rw [q3 hp, ← h1]
    exact h3

/-- The hypotheses are met by the training of the example of `C45`: six losses are read, whatever the workers do. -/
example (D : Env) (w : List Nat → ℝ) : ∃ (s : Store ℝ) (bs : List ((List Tensor × List Tensor) × Buf ℝ)) (es : List (RtEvent ℝ)) (r : Rt ℝ) (losses : List ℝ),
    trainExample.trainMain (fun _ => 3) false 0 bs = .ok (mainOf es) ∧ Rt.Run (.init s) es (.ok r) ∧ losses.length = 6 ∧ bs.map (fun b => b.2.data 0) = losses.map some := by
  obtain ⟨s, st, e, -, h6, -⟩ := trainExample_trains D w
  obtain ⟨bs, es, r, h1, h2, h3, -⟩ := C85_history rfl rfl e
  obtain ⟨_, -, h4, -⟩ := C85_training rfl rfl e h1 h2 h3
  exact ⟨s, bs, es, r, st.lossHist, h2, h3, h6, h4⟩

end NNTile
