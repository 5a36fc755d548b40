import Verif.Lib.ReduxOps
import Verif.Model.Flash
/-! The operations of FlashAttention in a program with replicas: none of their tasks is in mode `REDUX`. -/
namespace NNTile
variable {N : Handle → Nat} {kd : Handle → Option ReduxKind}

section
variable {α : Type} [FP α] {f : α → Bool} {v : α}

theorem fgemm_sz {tA tB : TransOp} {m n k bt : Nat} {al be : α} {A B : Buf α} (b : Buf α) : SzAt b.size (gemmKernel tA tB m n k bt al A B be b) := by
  unfold gemmKernel
  sz
theorem flashSoftmaxGemmKernel_sz {q h bt n : Nat} {K Q m e V : Buf α} (b : Buf α) : SzAt b.size (flashSoftmaxGemmKernel f v q h bt n K Q m e V b) :=
  SzAt.bind fun _ => fgemm_sz b
theorem flashDVKernel_sz {q h bt n : Nat} {K Q m e g : Buf α} (b : Buf α) : SzAt b.size (flashDVKernel f v q h bt n K Q m e g b) :=
  SzAt.bind fun _ => fgemm_sz b
theorem flashSumprodKernel_sz {q h bt n n' : Nat} {K Q m e g V : Buf α} (b : Buf α) : SzAt b.size (flashSumprodKernel f v q h bt n n' K Q m e g V b) :=
  SzAt.bind fun _ => SzAt.bind fun _ => by unfold sumprodSliceKernel storeSum; sz
theorem flashDQKernel_sz {q h bt n n' : Nat} {K Q m e g V p : Buf α} (b : Buf α) : SzAt b.size (flashDQKernel f v q h bt n n' K Q m e g V p b) :=
  SzAt.bind fun _ => fgemm_sz b
theorem flashDKKernel_sz {q h bt n n' : Nat} {K Q m e g V p : Buf α} (b : Buf α) : SzAt b.size (flashDKKernel f v q h bt n n' K Q m e g V p b) :=
  SzAt.bind fun _ => fgemm_sz b

theorem flashClear_plain {d : Nat} {h : Handle} (hd : h.1 = d) : (submitClear h : Task1 α).PlainTo d := Plain.task0 (by md) hd clearKernel_sz

theorem flashSoftmaxGemmAsync_plain (Q K V mask mse dst tmp : Tensor) : AllT (Task1.PlainTo dst.id) (flashSoftmaxGemmAsync f v Q K V mask mse dst tmp) := by
  unfold flashSoftmaxGemmAsync
  refine AllT.bind fun _ _ => AllT.bind fun _ _ => AllT.bind fun _ _ => AllT.bind fun _ _ => AllT.forTasks fun i _ => AllT.bind fun _ _ => AllT.bind fun _ _ => AllT.bind fun h hh =>
    AllT.bind fun _ _ => AllT.bind fun _ _ => AllT.consBind (flashClear_plain (handleAt_id hh)) (AllT.forTasks fun j _ => AllT.bind fun _ _ => AllT.bind fun _ _ => AllT.bind fun _ _ =>
      AllT.bind fun _ _ => AllT.single ⟨nofun, fun rs b => ?_, handleAt_id hh⟩)
  dsimp only [submitFlashSoftmaxGemm]
  split
  · exact flashSoftmaxGemmKernel_sz b
  · exact SzAt.error

theorem AllT.appendBind {P : Task1 α → Prop} {l0 : List (Task1 α)} {a : M (List (Task1 α))} (h : ∀ t ∈ l0, P t) (h' : AllT P a) : AllT P (a >>= fun l => .ok (l0 ++ l)) := by
  refine AllT.bind fun l hl => AllT.list fun t ht => ?_
  rcases List.mem_append.1 ht with ht | ht
  · exact h t ht
  · exact h' l hl t ht

/-- A task which writes to one of these tensors. -/
def Task1.PlainIn (ds : List Tensor) (t : Task1 α) : Prop := ∃ D ∈ ds, t.PlainTo D.id

theorem flashBackwardAsync_plain (Q dQ K dK V dV mask mse g tmp tmp' p : Tensor) : AllT (Task1.PlainIn [dQ, dK, dV, p]) (flashBackwardAsync f v Q dQ K dK V dV mask mse g tmp tmp' p) := by
  unfold flashBackwardAsync flashBackwardLoops
  refine AllT.bind fun _ _ => AllT.bind fun _ _ => AllT.bind fun _ _ => AllT.bind fun _ _ => AllT.append ?_ ?_
  · refine AllT.forTasks fun i _ => AllT.bind fun hQ eQ => AllT.bind fun hK eK => AllT.bind fun hV eV => AllT.bind fun _ _ => AllT.bind fun _ _ => AllT.bind fun _ _ => AllT.bind fun _ _ =>
      AllT.bind fun _ _ => AllT.bind fun _ _ => ?_
    refine AllT.appendBind (fun t ht => ?_) (AllT.forTasks fun j _ => AllT.bind fun _ _ => AllT.bind fun _ _ => AllT.bind fun hp ep => AllT.bind fun _ _ => AllT.bind fun _ _ => AllT.bind fun _ _ =>
      AllT.bind fun _ _ => AllT.list fun t ht => ?_)
    · simp only [List.mem_append, List.mem_cons, List.not_mem_nil, or_false] at ht
      rcases ht with (rfl | rfl) | rfl
      · exact ⟨dQ, by simp, flashClear_plain (handleL_id eQ)⟩
      · exact ⟨dK, by simp, flashClear_plain (handleL_id eK)⟩
      · exact ⟨dV, by simp, flashClear_plain (handleL_id eV)⟩
    · simp only [splitFlashBackward1, List.mem_cons, List.not_mem_nil, or_false] at ht
      rcases ht with rfl | rfl
      · refine ⟨dV, by simp, nofun, fun rs b => ?_, handleL_id eV⟩
        dsimp only
        split
        · exact flashDVKernel_sz b
        · exact SzAt.error
      · refine ⟨p, by simp, nofun, fun rs b => ?_, handleAt_id ep⟩
        dsimp only
        split
        · exact flashSumprodKernel_sz b
        · exact SzAt.error
  · refine AllT.forTasks fun i _ => AllT.bind fun hK eK => AllT.bind fun _ _ => AllT.bind fun _ _ => AllT.bind fun _ _ => AllT.bind fun _ _ => AllT.bind fun _ _ =>
      AllT.bind fun _ _ => AllT.forTasks fun j _ => AllT.bind fun _ _ => AllT.bind fun _ _ => AllT.bind fun _ _ => AllT.bind fun _ _ => AllT.bind fun _ _ => AllT.bind fun _ _ =>
      AllT.bind fun _ _ => AllT.bind fun hQ eQ => AllT.list fun t ht => ?_
    simp only [splitFlashBackward2, List.mem_cons, List.not_mem_nil, or_false] at ht
    rcases ht with rfl | rfl
    · refine ⟨dQ, by simp, nofun, fun rs b => ?_, handleAt_id eQ⟩
      dsimp only
      split
      · exact flashDQKernel_sz b
      · exact SzAt.error
    · refine ⟨dK, by simp, nofun, fun rs b => ?_, handleL_id eK⟩
      dsimp only
      split
      · exact flashDKKernel_sz b
      · exact SzAt.error
end

theorem flashMaxsumexpAsync_redc {f : ℝ → Bool} {v : ℝ} {Q K mask mse tmp : Tensor} : AllT (Task1.Redc N kd) (flashMaxsumexpAsync f v Q K mask mse tmp) := by
  unfold flashMaxsumexpAsync
  refine AllT.bind fun _ _ => AllT.bind fun _ _ => AllT.bind fun _ _ => AllT.bind fun _ _ => AllT.forTasks fun i _ => AllT.bind fun _ _ => AllT.bind fun _ _ => AllT.bind fun _ _ =>
    AllT.bind fun _ _ => AllT.forTasks fun j _ => AllT.bind fun _ _ => AllT.bind fun _ _ => AllT.bind fun _ _ => AllT.single ⟨fun rs b => ?_, nofun, fun _ rs b b' hn e => ?_⟩
  · dsimp only [submitFlashMaxsumexp]
    split
    · exact SzAt.bind fun _ => maxsumexpKernel_sz b
    · exact SzAt.error
  · dsimp only [submitFlashMaxsumexp] at e
    split at e
    · rw [flashMaxsumexpKernel, M.bind_eq_ok] at e
      obtain ⟨_, -, e⟩ := e
      exact NN.mse (maxsumexp_acc _ _ _ _) hn e
    · cases e

theorem flashBackwardAsync_redc {f : ℝ → Bool} {v : ℝ} {Q dQ K dK V dV mask mse g tmp tmp' p : Tensor} (hQ : NoMse kd dQ) (hK : NoMse kd dK) (hV : NoMse kd dV) (hp : NoMse kd p) :
    AllT (Task1.Redc N kd) (flashBackwardAsync f v Q dQ K dK V dV mask mse g tmp tmp' p) := by
  refine AllT.imp (flashBackwardAsync_plain Q dQ K dK V dV mask mse g tmp tmp' p) fun t ht => ?_
  obtain ⟨D, hD, h⟩ := ht
  refine Task1.PlainTo.redc h ?_
  simp only [List.mem_cons, List.not_mem_nil, or_false] at hD
  rcases hD with rfl | rfl | rfl | rfl <;> assumption

end NNTile
