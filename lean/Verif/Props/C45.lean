import Verif.Props.C44
import Verif.Props.C33
import Verif.Lib.Store
import Mathlib.Tactic.NormNum
/-!
# C45: training with the Frobenius loss, and examples for C44 and C45

The English claim "`Pipeline.train_async` trains with any of the loss functions of the package" is false for `Frob`: it has no method `get_val`, so an exception is raised after
the first batch. What is proved: the first batch is processed correctly (C44_batch holds for both loss functions).
-/
namespace NNTile
variable {p : Pipeline ℝ} {asIdx : ℝ → Int} {invalidate : Bool} {given acts : List Moments} {a0 : Moments} {layers : List (PyLayer ℝ)}

/-- With the loss `Frob`, `train_async` does not return, whatever the model, the data (at least one batch) and the state. -/
theorem C45_frob_train_refuted {l : Frob} (hl : p.loss = .frob l) (hn : 0 < p.nEpochs) (hb : p.x.zip p.y ≠ []) (tmpId : Nat) (st st' : TrainState ℝ) :
    p.trainAsync asIdx invalidate tmpId st ≠ .ok st' := by
  have key : ∀ st b, ∀ st', p.trainBatch asIdx invalidate tmpId st b ≠ .ok st' := by
    intro st b st' h
    unfold Pipeline.trainBatch at h
    cases h1 : p.batch asIdx invalidate st.steps b with
    | error e => rw [h1] at h; exact absurd h (by simp [bind, Except.bind])
    | ok tasks =>
      rw [h1, M.bind_ok] at h
      cases h2 : runAll tasks st.store with
      | error e => rw [h2] at h; exact absurd h (by simp [bind, Except.bind])
      | ok s =>
        rw [h2, M.bind_ok, hl] at h
        simp [PyLoss.getVal, bind, Except.bind] at h
  have key2 : ∀ st st', (p.x.zip p.y).foldlM (p.trainBatch asIdx invalidate tmpId) st ≠ .ok st' := by
    intro st st' h
    cases hz : p.x.zip p.y with
    | nil => exact hb hz
    | cons b bs =>
      rw [hz, List.foldlM_cons] at h
      cases h1 : p.trainBatch asIdx invalidate tmpId st b with
      | error e => rw [h1] at h; exact absurd h (by simp [bind, Except.bind])
      | ok s => exact key _ _ _ h1
  unfold Pipeline.trainAsync
  intro h
  obtain ⟨n, hn'⟩ : ∃ n, p.nEpochs = n + 1 := ⟨p.nEpochs - 1, by omega⟩
  rw [hn', forN_succ] at h
  cases h1 : forN n (fun _ st => (p.x.zip p.y).foldlM (p.trainBatch asIdx invalidate tmpId) st) st with
  | error e => rw [h1] at h; exact absurd h (by simp [bind, Except.bind])
  | ok s =>
    rw [h1, M.bind_ok] at h
    exact key2 _ _ h

/-- An exception is raised after the first batch; the parameters were updated correctly before. -/
theorem C45_frob_first_batch_partial (fit : p.Fits asIdx invalidate given a0 acts layers) {l : Frob} (hl : p.loss = .frob l) (tmpId : Nat)
    {D : Env} {k : Nat} {pt : TrainPoint (p.opt.toNet invalidate).rule} {s : Store ℝ} (hist : List ℝ)
    (hs : p.State asIdx invalidate given a0 layers D k pt s) {b : List Tensor × List Tensor} (hb : b ∈ p.x.zip p.y)
    (hv : BatchValid (netOf asIdx invalidate layers) (p.loss.toNet asIdx) a0.value.id (samples D b) pt.θ) :
    (∃ tasks s', p.batch asIdx invalidate k b = .ok tasks ∧ runAll tasks s = .ok s' ∧
      p.State asIdx invalidate given a0 layers D (k + 1) (trainNext (netOf asIdx invalidate layers) (p.loss.toNet asIdx) a0.value.id (p.opt.toNet invalidate).rule
        ((p.opt.toNet invalidate).params.map fun m => m.value.id) k (samples D b) pt) s' ∧
      p.loss.val.Holds s' (fun _ => lossValue (netOf asIdx invalidate layers) (p.loss.toNet asIdx) a0.value.id (samples D b) pt.θ)) ∧
    Throws (p.trainBatch asIdx invalidate tmpId ⟨s, k, hist⟩ b) := by
  obtain ⟨tasks, s', e1, e2, -, h1, h2, -⟩ := C44_batch fit hs hb hv
  refine ⟨⟨tasks, s', e1, e2, h1, h2⟩, "AttributeError", ?_⟩
  unfold Pipeline.trainBatch
  dsimp only
  rw [e1, M.bind_ok, e2, M.bind_ok, hl]
  rfl

/-! ### Examples -/

/-- A linear layer 7 → 5 without bias on batches of 6, in tiles. -/
def trainExampleLayer : Linear where
  side := .R
  transX := .noTrans
  x := ⟨⟨0, [7, 6], [3, 2]⟩, ⟨1, [7, 6], [3, 2]⟩, false⟩
  y := ⟨⟨2, [5, 6], [5, 2]⟩, ⟨3, [5, 6], [5, 2]⟩, true⟩
  w := ⟨⟨4, [5, 7], [5, 3]⟩, ⟨5, [5, 7], [5, 3]⟩, true⟩
  ndim := 1
  b := none
  redux := false

theorem trainExampleLayer_fits : trainExampleLayer.Fits [5] [7] [6] := by
  refine ⟨rfl, ⟨rfl, rfl, rfl⟩, ⟨[5], [3], [2], rfl, ⟨rfl, rfl, rfl⟩, ?_⟩, ?_, ?_⟩
  · rintro b ⟨⟩
  · rintro b ⟨⟩
  · simp [trainExampleLayer]

/-- Two batches of two minibatches each, three epochs, SGD with momentum. -/
noncomputable def trainExample : Pipeline ℝ where
  x := [[⟨11, [7, 6], [3, 2]⟩, ⟨12, [7, 6], [3, 2]⟩], [⟨12, [7, 6], [3, 2]⟩, ⟨15, [7, 6], [3, 2]⟩]]
  y := [[⟨13, [6], [2]⟩, ⟨14, [6], [2]⟩], [⟨14, [6], [2]⟩, ⟨16, [6], [2]⟩]]
  model := BaseModel.init [trainExampleLayer.x, trainExampleLayer.y] [.linear trainExampleLayer]
  opt := .sgd ⟨[trainExampleLayer.w], false, 1/10, 9/10, 0, 0, [⟨10, [5, 7], [5, 3]⟩]⟩
  loss := .crossEntropy ⟨trainExampleLayer.y, ⟨6, [6], [2]⟩, ⟨7, [], []⟩, ⟨8, [2, 6], [2, 2]⟩, ⟨9, [6], [2]⟩, false, 1/12⟩
  nEpochs := 3

theorem trainExample_fits (asIdx : ℝ → Int) :
    trainExample.Fits asIdx false [trainExampleLayer.x, trainExampleLayer.w] trainExampleLayer.x [trainExampleLayer.x, trainExampleLayer.y] [.linear trainExampleLayer] := by
  have hm : (0 : ℝ) < 9/10 := by norm_num
  refine ⟨rfl, ⟨?_, ?_, ?_, ?_⟩, rfl, by simp, ?_, ?_, ?_, ?_, ?_, ?_, ?_, ?_, ?_, ?_, ?_, ?_⟩
  · simp only [List.forall_mem_cons, List.not_mem_nil, IsEmpty.forall_iff, implies_true, and_true]
    exact ⟨⟨_, _, _, trainExampleLayer_fits⟩, rfl⟩
  · simp [netOf, PyLayer.toNet, Linear.toNet, trainExampleLayer]
  · simp [netOf, PyLayer.toNet, Linear.toNet, trainExampleLayer, Ordered]
  · simp [netOf, PyLayer.toNet, Linear.toNet, trainExampleLayer, netIds, Moments.ids, Moments.gradIds]
  · simp [netOf, PyLayer.toNet, Linear.toNet]
  · simp [trainExampleLayer]
  · simp [netOf, PyLayer.toNet, Linear.toNet]
  · simp [PyLayer.parameters, trainExampleLayer]
  · simp [PyLayer.parameters, trainExampleLayer]
  · simp [PyLayer.parameters, trainExampleLayer]
  · refine ⟨⟨5, ?_, ⟨rfl, rfl⟩, ⟨rfl, rfl⟩, ⟨rfl, rfl⟩, ⟨rfl, rfl⟩, rfl⟩, rfl⟩
    simp [trainExampleLayer]
  · simp [trainExample, PyLoss.toNet, CrossEntropy.toNet, netOf, PyLayer.toNet, Linear.toNet]
  · change OptFits _ _
    dsimp only
    rw [if_pos hm]
    exact ⟨by decide, by simp [trainExampleLayer], by simp, by simp [trainExampleLayer]⟩
  · simp [trainExample, PyOpt.toNet, SGD.toNet, PyLayer.parameters, trainExampleLayer]
  · simp [trainExample, PyOpt.toNet, SGD.toNet, PyLoss.toNet, CrossEntropy.toNet, netOf, PyLayer.toNet, Linear.toNet, netIds, Moments.ids, Moments.gradIds, trainExampleLayer, hm]
  · simp [trainExample, PyOpt.toNet, SGD.toNet, PyLoss.toNet, PyLoss.y, CrossEntropy.toNet, netOf, PyLayer.toNet, Linear.toNet, netIds, Moments.ids, Moments.gradIds,
      trainExampleLayer, hm]
    constructor <;> (rintro a b (⟨rfl, rfl⟩ | ⟨rfl, rfl⟩) <;> simp)

/-- C44 applies: training makes 6 steps, whatever the initial weights `w` and data `D`, all labels being numbers of classes. -/
theorem trainExample_trains (D : Env) (w : List Nat → ℝ) : ∃ (s : Store ℝ) (st : TrainState ℝ), trainExample.trainAsync (fun _ => 3) false 17 ⟨s, 0, []⟩ = .ok st ∧ st.steps = 6 ∧
    st.lossHist.length = 6 ∧ Tensor.Ready ⟨4, [5, 7], [5, 3]⟩ st.store := by
  have hm : (0 : ℝ) < 9/10 := by norm_num
  have h := storeOf_spec [(trainExampleLayer.x.value, fun _ => (0 : ℝ)), (trainExampleLayer.y.value, fun _ => 0), (trainExampleLayer.y.grad, fun _ => 0),
    (trainExampleLayer.w.value, w), (trainExampleLayer.w.grad, fun _ => 0), (⟨6, [6], [2]⟩, fun _ => 0), (⟨7, [], []⟩, fun _ => 0), (⟨8, [2, 6], [2, 2]⟩, fun _ => 0),
    (⟨9, [6], [2]⟩, fun _ => 0), (⟨10, [5, 7], [5, 3]⟩, fun _ => 0), (⟨11, [7, 6], [3, 2]⟩, D 11), (⟨12, [7, 6], [3, 2]⟩, D 12), (⟨13, [6], [2]⟩, D 13),
    (⟨14, [6], [2]⟩, D 14), (⟨15, [7, 6], [3, 2]⟩, D 15), (⟨16, [6], [2]⟩, D 16)]
    (by simp [trainExampleLayer, Tensor.WF]) (by simp [trainExampleLayer])
  generalize storeOf _ = s at h
  simp only [List.forall_mem_cons, List.not_mem_nil, IsEmpty.forall_iff, implies_true, and_true] at h
  obtain ⟨h0, h2, h3, h4, h5, h6, h7, h8, h9, h10, h11, h12, h13, h14, h15, h16⟩ := h
  have hs : trainExample.State (fun _ => 3) false [trainExampleLayer.x, trainExampleLayer.w] trainExampleLayer.x [.linear trainExampleLayer] D 0
      ⟨fun _ => w, fun _ _ => ((trainExample.opt.toNet false).rule).init⟩ s := by
    refine ⟨⟨?_, ?_⟩, ?_, ?_, ?_, ?_⟩
    · simp only [netOf, PyLayer.toNet, Linear.toNet, List.map_cons, List.map_nil, List.cons_append, List.nil_append, List.forall_mem_cons, List.not_mem_nil,
        IsEmpty.forall_iff, implies_true, and_true]
      exact ⟨⟨h0.1, fun e => by simp [trainExampleLayer] at e⟩, ⟨h4.1, fun _ => h5.1⟩, ⟨h2.1, fun _ => h3.1⟩⟩
    · simp [netOf, PyLayer.toNet, Linear.toNet, AllReady]
    · simp only [List.forall_mem_cons, List.not_mem_nil, IsEmpty.forall_iff, implies_true, and_true]
      exact ⟨fun e => absurd rfl e, fun _ => h4.2⟩
    · simp only [AllReady, trainExample, PyLoss.toNet, CrossEntropy.toNet, List.forall_mem_cons, List.not_mem_nil, IsEmpty.forall_iff, implies_true, and_true]
      exact ⟨h6.1, h7.1, h8.1, h9.1⟩
    · intro _
      simp only [List.zip_cons_cons, List.zip_nil_left, List.forall_mem_cons, List.not_mem_nil, IsEmpty.forall_iff, implies_true, and_true]
      exact ⟨h10.1, fun e => absurd rfl e⟩
    · simp only [trainExample, List.zip_cons_cons, List.zip_nil_left, List.forall_mem_cons, List.not_mem_nil, IsEmpty.forall_iff, implies_true, and_true]
      exact ⟨⟨⟨h11, h13⟩, h12, h14⟩, ⟨h12, h14⟩, h15, h16⟩
  have hB : ∀ (b : List Sample) (θ : Env), BatchValid (netOf (fun _ => 3) false [.linear trainExampleLayer]) (trainExample.loss.toNet fun _ => 3) trainExampleLayer.x.value.id b θ := by
    intro b θ d _
    refine ⟨by simp [netOf, PyLayer.toNet, Linear.toNet, NetValid], by simp [netOf, PyLayer.toNet, Linear.toNet, NetRegular], ?_⟩
    intro J _
    exact ⟨by norm_num, by simp [trainExampleLayer]⟩
  have hT : ∀ (bs : List (List Sample)) (k : Nat) (pt : TrainPoint (trainExample.opt.toNet false).rule),
      TrainValid (netOf (fun _ => 3) false [.linear trainExampleLayer]) (trainExample.loss.toNet fun _ => 3) trainExampleLayer.x.value.id (trainExample.opt.toNet false).rule
        ((trainExample.opt.toNet false).params.map fun m => m.value.id) k bs pt := by
    intro bs
    induction bs with
    | nil => intro _ _; trivial
    | cons b bs ih => intro k pt; exact ⟨hB _ _, ih _ _⟩
  obtain ⟨st, e, e2, e3, e4⟩ := C44_train (trainExample_fits fun _ => 3) rfl (tmpId := 17) (by simp [trainExample, PyLoss.val]) hs (hT _ _ _)
  refine ⟨s, st, e, e2, ?_, ?_⟩
  · rw [e3]
    simp [trainExample, trainRun]
  · exact (e4.ready.1 trainExampleLayer.w (by simp)).1

end NNTile
