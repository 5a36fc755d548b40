import Verif.Lib.ReduxModel
import Verif.Model.Optim
/-! The tasks of optimizers in a program with replicas. -/
namespace NNTile
variable {α : Type}
attribute [local irreducible] SzAt AllT Task1.PlainTo

section
variable [FP α]

theorem scalInplaceAsync_plain (al : α) (A : Tensor) : AllT (Task1.PlainTo A.id) (scalInplaceAsync al A) :=
  loop0_plain fun _ _ hd => Plain.task0 (by md) (by hid) (fun b => scalInplaceKernel_sz _ _ b)
theorem hypotAsync_plain (al be : α) (A B : Tensor) : AllT (Task1.PlainTo B.id) (hypotAsync al A be B) := by
  unfold hypotAsync
  exact bind_plain (AllT.ite (fun _ => AllT.nil) fun _ => loop1_plain fun n h h' hd => Plain.task1 (by md) (by hid) (fun a b => by unfold hypotKernel; sz))
theorem maximumAsync_plain (A B : Tensor) : AllT (Task1.PlainTo B.id) (maximumAsync A B : M (List (Task1 α))) := by
  unfold maximumAsync
  exact bind_plain (loop1_plain fun n h h' hd => Plain.task1 (by md) (by hid) (fun a b => by unfold maximumKernel; sz))
theorem addcdivAsync_plain (v e : α) (A B C : Tensor) : AllT (Task1.PlainTo C.id) (addcdivAsync v e A B C) := by
  unfold addcdivAsync
  at_
  exact Plain.task2 (by md) (by hid) (fun a a' b => by unfold addcdivKernel; sz)
end

variable {m : BaseModel ℝ} {L : List (CrossEntropy ℝ)}

/-- The tensor is not registered for pairs. -/
def NotPairs (m : BaseModel ℝ) (L : List (CrossEntropy ℝ)) (T : Tensor) : Prop := ∀ p ∈ netReductions m L, p.2 = .maxsumexp → T.id ≠ p.1.id

theorem AllT.other {T : Tensor} {a : M (List (Task1 ℝ))} (h : AllT (Task1.PlainTo T.id) a) (hT : NotPairs m L T) : AllT (OtherTask m L) a := by
  refine AllT.imp h fun t ht => ?_
  unfold Task1.PlainTo at ht
  obtain ⟨h1, h2, h3⟩ := ht
  unfold SzAt at h2
  exact ⟨h1, fun rs b b' e => h2 rs b b' e, fun p hp e => h3 ▸ hT p hp e⟩

theorem pyTensor_mem {l : List Tensor} {i : Nat} {T : Tensor} (h : pyTensor l i = .ok T) : T ∈ l := by
  unfold pyTensor at h
  split at h
  · cases Except.ok.inj h
    exact List.mem_of_getElem? ‹_›
  · cases h

theorem mem_zipIdx_fst {β : Type} {l : List β} {p : β × Nat} (h : p ∈ l.zipIdx) : p.1 ∈ l := by
  obtain ⟨x, i⟩ := p
  rw [List.mem_zipIdx_iff_getElem?] at h
  exact List.mem_of_getElem? h

theorem SGD.other {o : SGD ℝ} {k : Nat} (hp : ∀ q ∈ o.params, NotPairs m L q.value ∧ NotPairs m L q.grad) (hs : ∀ T ∈ o.states, NotPairs m L T) : AllT (OtherTask m L) (o.stepAsync k) := by
  unfold SGD.stepAsync
  refine AllT.seq fun a ha => ?_
  obtain ⟨⟨q, i⟩, hq, rfl⟩ := List.mem_map.1 ha
  obtain ⟨h1, h2⟩ := hp q (mem_zipIdx_fst hq)
  unfold SGD.stepParam
  refine AllT.cons (AllT.when ((axpyScalarAsync_plain ..).other h2)) (AllT.cons (AllT.when (AllT.bind fun T hT => ?_)) (AllT.cons ((axpyScalarAsync_plain ..).other h1) AllT.nil))
  have h3 := hs T (pyTensor_mem hT)
  refine AllT.cons (AllT.ite (fun _ => (copyAsync_plain ..).other h3) fun _ => ?_) (AllT.cons (AllT.ite (fun _ => (axpyScalarAsync_plain ..).other h2) fun _ => (copyAsync_plain ..).other h2) AllT.nil)
  exact AllT.cons ((scalInplaceAsync_plain ..).other h3) (AllT.cons ((axpyScalarAsync_plain ..).other h3) AllT.nil)

theorem Adam.other {o : Adam ℝ} {k : Nat} (hp : ∀ q ∈ o.params, NotPairs m L q.value ∧ NotPairs m L q.grad)
    (hs : ∀ T ∈ o.firstMoments ++ o.secondMoments ++ o.maxSecondMoments, NotPairs m L T) : AllT (OtherTask m L) (o.stepAsync k) := by
  unfold Adam.stepAsync
  refine AllT.seq fun a ha => ?_
  obtain ⟨⟨q, i⟩, hq, rfl⟩ := List.mem_map.1 ha
  obtain ⟨h1, h2⟩ := hp q (mem_zipIdx_fst hq)
  unfold Adam.stepParam
  refine AllT.bind fun T hT => AllT.bind fun U hU => ?_
  have hT := hs T (by simp [pyTensor_mem hT])
  have hU := hs U (by simp [pyTensor_mem hU])
  refine AllT.cons (AllT.when ((axpyScalarAsync_plain ..).other h2)) (AllT.cons (AllT.ite (fun _ => AllT.cons ((clearAsync_plain ..).other hT) (AllT.cons ((addAsync_plain ..).other hT) AllT.nil))
    fun _ => (addAsync_plain ..).other hT) (AllT.cons (AllT.when ((clearAsync_plain ..).other hU)) (AllT.cons (AllT.when (AllT.bind fun W hW => (clearAsync_plain ..).other (hs W (by simp [pyTensor_mem hW]))))
    (AllT.cons ((hypotAsync_plain ..).other hU) (AllT.cons (AllT.ite (fun _ => AllT.bind fun W hW => ?_) fun _ => (addcdivAsync_plain ..).other h1) AllT.nil)))))
  exact AllT.cons ((maximumAsync_plain ..).other (hs W (by simp [pyTensor_mem hW]))) (AllT.cons ((addcdivAsync_plain ..).other h1) AllT.nil)

theorem ReduxNet.notPairs {s : Store ℝ} (H : ReduxNet m L s) {l : PyLayer ℝ} (hl : l ∈ m.layers) {T : Tensor} (hT : T ∈ l.tensors) : NotPairs m L T :=
  fun p hp e => (H.pairs p hp e).1 T (List.mem_append_left _ (List.mem_flatMap.2 ⟨l, hl, hT⟩))

end NNTile
