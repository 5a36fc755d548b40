import Verif.Model.CrossEntropy
import Verif.Lib.ReduxAcc
import Verif.Model.BaseModel
/-! Which tasks may be executed with replicas. -/
namespace NNTile
variable {α : Type}

/-- If there is a result, it is a buffer with `n` elements. -/
def SzAt (n : Nat) (x : M (Buf α)) : Prop := ∀ b, x = .ok b → b.size = n

theorem SzAt.ok {n : Nat} {b : Buf α} (h : b.size = n) : SzAt n (.ok b) := fun _ e => by cases Except.ok.inj e; exact h
theorem SzAt.error {n : Nat} {e : Err} : SzAt n (.error e : M (Buf α)) := fun _ e => by cases e
theorem SzAt.wr {n i : Nat} {v : α} {b : Buf α} (h : b.size = n) : SzAt n (b.wr i v) := by
  intro b' e
  unfold Buf.wr at e
  split at e
  · cases Except.ok.inj e; exact h
  · cases e
theorem SzAt.bind {β : Type} {n : Nat} {e : M β} {f : β → M (Buf α)} (h : ∀ x, SzAt n (f x)) : SzAt n (e >>= f) := by
  intro b hb
  rw [M.bind_eq_ok] at hb
  obtain ⟨x, -, hb⟩ := hb
  exact h x b hb
theorem SzAt.bindBuf {n : Nat} {e : M (Buf α)} {f : Buf α → M (Buf α)} (h : SzAt n e) (h' : ∀ b, b.size = n → SzAt n (f b)) : SzAt n (e >>= f) := by
  intro b hb
  rw [M.bind_eq_ok] at hb
  obtain ⟨x, hx, hb⟩ := hb
  exact h' x (h x hx) b hb
theorem SzAt.forN {n k : Nat} {f : Nat → Buf α → M (Buf α)} {b : Buf α} (h : b.size = n) (h' : ∀ i b, b.size = n → SzAt n (f i b)) : SzAt n (NNTile.forN k f b) := by
  induction k with
  | zero => exact SzAt.ok h
  | succ k ih => exact SzAt.bindBuf ih (fun b hb => h' k b hb)
theorem SzAt.ite {n : Nat} {p : Prop} [Decidable p] {x y : M (Buf α)} (h : SzAt n x) (h' : SzAt n y) : SzAt n (if p then x else y) := by
  split
  · exact h
  · exact h'

syntax "sz" : tactic
macro_rules
  | `(tactic| sz) => `(tactic| repeat' (first | assumption | rfl | apply SzAt.error | apply SzAt.ok | apply SzAt.wr | apply SzAt.forN | (apply SzAt.bindBuf) | apply SzAt.bind | apply SzAt.ite | intro _))

/-- The predicate holds for all tasks, if submission succeeds. -/
def AllT (P : Task1 α → Prop) (a : M (List (Task1 α))) : Prop := ∀ ts, a = .ok ts → ∀ t ∈ ts, P t

variable {P : Task1 α → Prop}

theorem AllT.nil : AllT P (.ok []) := fun _ e t ht => by cases Except.ok.inj e; simp at ht
theorem AllT.single {t : Task1 α} (h : P t) : AllT P (.ok [t]) := fun _ e u hu => by cases Except.ok.inj e; rw [List.mem_singleton.1 hu]; exact h
theorem AllT.error {e : Err} : AllT P (.error e) := fun _ e => by cases e
theorem AllT.list {l : List (Task1 α)} (h : ∀ t ∈ l, P t) : AllT P (.ok l) := fun _ e => by cases Except.ok.inj e; exact h
theorem AllT.bind {β : Type} {e : M β} {f : β → M (List (Task1 α))} (h : ∀ x, e = .ok x → AllT P (f x)) : AllT P (e >>= f) := by
  intro ts hts
  rw [M.bind_eq_ok] at hts
  obtain ⟨x, hx, hts⟩ := hts
  exact h x hx ts hts
theorem AllT.append {a b : M (List (Task1 α))} (h : AllT P a) (h' : AllT P b) : AllT P (a >>= fun l => b >>= fun l' => .ok (l ++ l')) := by
  intro ts hts
  rw [M.bind_eq_ok] at hts
  obtain ⟨x, hx, hts⟩ := hts
  rw [M.bind_eq_ok] at hts
  obtain ⟨y, hy, hts⟩ := hts
  cases Except.ok.inj hts
  intro t ht
  rcases List.mem_append.1 ht with ht | ht
  · exact h x hx t ht
  · exact h' y hy t ht
theorem AllT.consBind {t : Task1 α} {a : M (List (Task1 α))} (h : P t) (h' : AllT P a) : AllT P (a >>= fun l => .ok (t :: l)) := by
  intro ts hts
  rw [M.bind_eq_ok] at hts
  obtain ⟨l, hl, hts⟩ := hts
  cases Except.ok.inj hts
  intro u hu
  rcases List.mem_cons.1 hu with rfl | hu
  · exact h
  · exact h' l hl u hu
theorem AllT.forTasks {n : Nat} {f : Nat → M (List (Task1 α))} (h : ∀ i, i < n → AllT P (f i)) : AllT P (NNTile.forTasks n f) := by
  induction n with
  | zero => exact AllT.nil
  | succ n ih => exact AllT.append (ih (fun i hi => h i (by omega))) (h n (by omega))
theorem AllT.ite {p : Prop} [Decidable p] {x y : M (List (Task1 α))} (h : p → AllT P x) (h' : ¬ p → AllT P y) : AllT P (if p then x else y) := by
  split
  · exact h ‹_›
  · exact h' ‹_›
theorem AllT.imp {Q : Task1 α → Prop} {a : M (List (Task1 α))} (h : AllT P a) (e : ∀ t, P t → Q t) : AllT Q a := fun ts hts t ht => e t (h ts hts t ht)

theorem AllT.seq {l : List (M (List (Task1 α)))} (h : ∀ a ∈ l, AllT P a) : AllT P (seqAsync l) := by
  induction l with
  | nil => exact AllT.nil
  | cons a l ih => exact AllT.append (h a (by simp)) (ih (fun b hb => h b (by simp [hb])))
theorem AllT.when {c : Bool} {a : M (List (Task1 α))} (h : AllT P a) : AllT P (whenAsync c a) := by
  cases c
  · exact AllT.nil
  · exact h

/-- The task writes to a tile of the tensor `d`, does not change the size of its output and is not in mode `REDUX`. -/
def Task1.PlainTo (d : Nat) (t : Task1 α) : Prop := t.mode ≠ .REDUX ∧ (∀ rs b, SzAt b.size (t.fn rs b)) ∧ t.out.1 = d

theorem handleL_id {T : Tensor} {i : Nat} {h : Handle} (e : T.handleL i = .ok h) : h.1 = T.id := by
  unfold Tensor.handleL at e
  split at e
  · cases Except.ok.inj e; rfl
  · cases e
theorem handleAt_id {T : Tensor} {t : List Nat} {h : Handle} (e : T.handleAt t = .ok h) : h.1 = T.id := by
  unfold Tensor.handleAt at e
  split at e
  · cases Except.ok.inj e; rfl
  · cases e
macro "hid" : tactic => `(tactic| first | assumption | (apply handleL_id; assumption) | (apply handleAt_id; assumption))

theorem Plain.task0 {d : Nat} {name : String} {mode : WMode} {dst : Handle} {k : Buf α → M (Buf α)} (hm : mode ≠ .REDUX) (hd : dst.1 = d) (hk : ∀ b, SzAt b.size (k b)) :
    (NNTile.task0 name mode dst k).PlainTo d := by
  refine ⟨hm, fun rs b => ?_, hd⟩
  unfold NNTile.task0
  dsimp only
  split
  · exact hk b
  · exact SzAt.error
theorem Plain.task1 {d : Nat} {name : String} {mode : WMode} {src dst : Handle} {k : Buf α → Buf α → M (Buf α)} (hm : mode ≠ .REDUX) (hd : dst.1 = d) (hk : ∀ a b, SzAt b.size (k a b)) :
    (NNTile.task1 name src mode dst k).PlainTo d := by
  refine ⟨hm, fun rs b => ?_, hd⟩
  unfold NNTile.task1
  dsimp only
  split
  · exact hk _ b
  · exact SzAt.error
theorem Plain.task2 {d : Nat} {name : String} {mode : WMode} {src src' dst : Handle} {k : Buf α → Buf α → Buf α → M (Buf α)} (hm : mode ≠ .REDUX) (hd : dst.1 = d) (hk : ∀ a a' b, SzAt b.size (k a a' b)) :
    (NNTile.task2 name src src' mode dst k).PlainTo d := by
  refine ⟨hm, fun rs b => ?_, hd⟩
  unfold NNTile.task2
  dsimp only
  split
  · exact hk _ _ b
  · exact SzAt.error

syntax "at_" : tactic
macro_rules
  | `(tactic| at_) => `(tactic| repeat' (first | apply AllT.nil | apply AllT.error | apply AllT.single | apply AllT.forTasks | apply AllT.append | apply AllT.ite | apply AllT.bind | intro _))

syntax "md" : tactic
macro_rules
  | `(tactic| md) => `(tactic| first | decide | (split <;> first | decide | (split <;> decide)))

attribute [local irreducible] SzAt AllT Task1.PlainTo

theorem loop0_plain {A : Tensor} {submit : Nat → Handle → Task1 α} (h : ∀ n h, h.1 = A.id → (submit n h).PlainTo A.id) : AllT (Task1.PlainTo A.id) (loop0 A submit) := by
  unfold loop0; at_; exact h _ _ (by hid)
theorem loop1_plain {A B : Tensor} {submit : Nat → Handle → Handle → Task1 α} (h : ∀ n h h', h'.1 = B.id → (submit n h h').PlainTo B.id) : AllT (Task1.PlainTo B.id) (loop1 A B submit) := by
  unfold loop1; at_; exact h _ _ _ (by hid)
theorem loop2_plain {A B C : Tensor} {submit : Nat → Handle → Handle → Handle → Task1 α} (h : ∀ n h h' h'', h''.1 = C.id → (submit n h h' h'').PlainTo C.id) : AllT (Task1.PlainTo C.id) (loop2 A B C submit) := by
  unfold loop2; at_; exact h _ _ _ _ (by hid)
theorem bind_plain {β : Type} {e : M β} {a : M (List (Task1 α))} (h : AllT P a) : AllT P (e >>= fun _ => a) := AllT.bind (fun _ _ => h)

section
variable [FP α]

theorem clearKernel_sz (b : Buf α) : SzAt b.size (clearKernel b) := by unfold clearKernel; sz
theorem scalInplaceKernel_sz (n : Int) (al : α) (b : Buf α) : SzAt b.size (scalInplaceKernel n al b) := by unfold scalInplaceKernel; sz

theorem clearAsync_plain (A : Tensor) : AllT (Task1.PlainTo A.id) (clearAsync A : M (List (Task1 α))) :=
  loop0_plain fun _ _ hd => Plain.task0 (by md) (by hid) clearKernel_sz
omit [FP α] in
theorem invalidateAsync_plain (c : Bool) (A : Tensor) : AllT (Task1.PlainTo A.id) (invalidateAsync c A : M (List (Task1 α))) := by
  unfold invalidateAsync
  exact AllT.ite (fun _ => loop0_plain fun _ _ hd => Plain.task0 (by md) (by hid) (fun b => SzAt.ok rfl)) fun _ => AllT.nil
theorem addAsync_plain (al be : α) (A B : Tensor) : AllT (Task1.PlainTo B.id) (addAsync al A be B) := by
  unfold addAsync
  refine bind_plain (AllT.ite (fun _ => AllT.nil) fun _ => loop1_plain fun n h h' hd => ?_)
  unfold submitAdd submitScal submitClear submitScalInplace
  split
  · split
    · exact Plain.task0 (by md) (by hid) clearKernel_sz
    · exact Plain.task1 (by md) (by hid) (fun a b => by unfold scalKernel; sz)
  · split
    · exact Plain.task0 (by md) (by hid) (fun b => scalInplaceKernel_sz _ _ b)
    · exact Plain.task1 (by md) (by hid) (fun a b => by unfold addKernel; sz)
theorem axpyScalarAsync_plain (al : α) (A B : Tensor) : AllT (Task1.PlainTo B.id) (axpyScalarAsync al A B) := by
  unfold axpyScalarAsync
  exact bind_plain (loop1_plain fun n h h' hd => Plain.task1 (by md) (by hid) (fun a b => by unfold axpyScalarKernel; sz))
omit [FP α] in
theorem copyAsync_plain (A B : Tensor) : AllT (Task1.PlainTo B.id) (copyAsync A B : M (List (Task1 α))) := by
  unfold copyAsync
  at_
  exact Plain.task1 (by md) (by hid) (fun a b => by sz)
theorem addFiberAsync_plain (al be : α) (A B : Tensor) (a b : Int) : AllT (Task1.PlainTo B.id) (addFiberAsync al A be B a b) := by
  unfold addFiberAsync
  at_
  exact Plain.task1 (by md) (by hid) (fun a b => by unfold addFiberKernel; sz)
omit [FP α] in
theorem sliceLoop_plain {A B : Tensor} {a : Nat} {submit : List Nat → Handle → Handle → Nat → M (Task1 α)} (h : ∀ S h h' n t, h'.1 = B.id → submit S h h' n = .ok t → t.PlainTo B.id) :
    AllT (Task1.PlainTo B.id) (sliceLoop A B a submit) := by
  unfold sliceLoop
  at_
  exact h _ _ _ _ _ (by hid) ‹_›
theorem addSliceAsync_plain (al be : α) (A B : Tensor) (a : Int) : AllT (Task1.PlainTo B.id) (addSliceAsync al A be B a) := by
  unfold addSliceAsync
  refine bind_plain (bind_plain (bind_plain (bind_plain (sliceLoop_plain fun S h h' n t hd e => ?_))))
  cases Except.ok.inj e
  exact Plain.task1 (by md) (by hid) (fun a b => by unfold addSliceKernel; sz)
theorem prodSliceAsync_plain (al : α) (A B : Tensor) (a : Int) : AllT (Task1.PlainTo B.id) (prodSliceAsync A al B a) := by
  unfold prodSliceAsync
  refine bind_plain (bind_plain (bind_plain (bind_plain (sliceLoop_plain fun S h h' n t hd e => ?_))))
  cases Except.ok.inj e
  exact Plain.task1 (by md) (by hid) (fun a b => by unfold prodSliceKernel; sz)
theorem addSlice3Async_plain (al be : α) (A C B : Tensor) (a : Int) : AllT (Task1.PlainTo B.id) (addSlice3Async al A be C B a) := by
  unfold addSlice3Async
  refine bind_plain (bind_plain (bind_plain (bind_plain (bind_plain (bind_plain (bind_plain (sliceLoop_plain fun S h h' n t hd e => ?_)))))))
  rw [M.bind_eq_ok] at e
  obtain ⟨_, _, e⟩ := e
  cases Except.ok.inj e
  exact Plain.task2 (by md) (by hid) (fun a a' b => by unfold addSlice3Kernel; sz)
omit [FP α] in
theorem embeddingAsync_plain [FP α] (f : α → Int) (A B C : Tensor) (a : Int) : AllT (Task1.PlainTo C.id) (embeddingAsync f A B C a) := by
  unfold embeddingAsync
  refine bind_plain (AllT.forTasks fun i _ => AllT.bind fun h _ => AllT.bind fun h' _ => AllT.consBind (Plain.task0 (by md) (by hid) clearKernel_sz) (AllT.forTasks fun j _ => AllT.bind fun h _ => AllT.single ?_))
  exact Plain.task2 (by md) (by hid) (fun a a' b => by unfold embeddingKernel; sz)
theorem embeddingBackwardAsync_plain (f : α → Int) (A B C : Tensor) (a : Int) : AllT (Task1.PlainTo C.id) (embeddingBackwardAsync f A B C a false) := by
  unfold embeddingBackwardAsync
  at_
  exact Plain.task2 (by md) (by hid) (fun a a' b => by unfold embeddingBackwardKernel; sz)
theorem geluAsync_plain (A : Tensor) : AllT (Task1.PlainTo A.id) (geluAsync A : M (List (Task1 α))) :=
  loop0_plain fun _ _ hd => Plain.task0 (by md) (by hid) (fun b => by unfold geluKernel; sz)
theorem geluBackwardAsync_plain (A B C : Tensor) : AllT (Task1.PlainTo C.id) (geluBackwardAsync A B C : M (List (Task1 α))) :=
  bind_plain (bind_plain (loop2_plain fun _ _ _ _ hd => Plain.task2 (by md) (by hid) (fun a a' b => by unfold geluBackwardKernel; sz)))
theorem gelutanhAsync_plain (A B : Tensor) : AllT (Task1.PlainTo B.id) (gelutanhAsync A B : M (List (Task1 α))) :=
  bind_plain (loop1_plain fun _ _ _ hd => Plain.task1 (by md) (by hid) (fun a b => by unfold gelutanhKernel; sz))
theorem gelutanhBackwardAsync_plain (A B C : Tensor) : AllT (Task1.PlainTo C.id) (gelutanhBackwardAsync A B C : M (List (Task1 α))) :=
  bind_plain (bind_plain (loop2_plain fun _ _ _ _ hd => Plain.task2 (by md) (by hid) (fun a a' b => by unfold gelutanhBackwardKernel; sz)))
theorem hypotScalarInverseAsync_plain (e al : α) (A : Tensor) : AllT (Task1.PlainTo A.id) (hypotScalarInverseAsync e al A) :=
  loop0_plain fun _ _ hd => Plain.task0 (by md) (by hid) (fun b => by unfold hypotScalarInverseKernel; sz)
omit [FP α] in
theorem maskScalarAsync_plain (f : α → Bool) (m : Tensor) (v : α) (A : Tensor) (a : Int) : AllT (Task1.PlainTo A.id) (maskScalarAsync f m v A a) := by
  unfold maskScalarAsync
  at_
  exact Plain.task1 (by md) (by hid) (fun a b => by unfold maskScalarKernel; sz)
theorem prodAsync_plain (A B : Tensor) : AllT (Task1.PlainTo B.id) (prodAsync A B : M (List (Task1 α))) :=
  bind_plain (loop1_plain fun _ _ _ hd => Plain.task1 (by md) (by hid) (fun a b => by unfold prodKernel; sz))
theorem prodFiber3Async_plain (al : α) (A B C : Tensor) (a : Int) : AllT (Task1.PlainTo C.id) (prodFiber3Async A al B C a) := by
  unfold prodFiber3Async
  at_
  exact Plain.task2 (by md) (by hid) (fun a a' b => by unfold prodFiber3Kernel; sz)
theorem reluForwardAsync_plain (A B : Tensor) : AllT (Task1.PlainTo B.id) (reluForwardAsync A B : M (List (Task1 α))) :=
  bind_plain (loop1_plain fun _ _ _ hd => Plain.task1 (by md) (by hid) (fun a b => by unfold reluForwardKernel; sz))
theorem reluBackwardAsync_plain (A B C : Tensor) : AllT (Task1.PlainTo C.id) (reluBackwardAsync A B C : M (List (Task1 α))) :=
  bind_plain (bind_plain (loop2_plain fun _ _ _ _ hd => Plain.task2 (by md) (by hid) (fun a a' b => by unfold reluBackwardKernel; sz)))
omit [FP α] in
theorem softmaxLoop_plain {A B : Tensor} {a : Nat} {submit : Nat → Nat → Nat → Handle → Handle → Nat → M (Task1 α)} (h : ∀ m n k h h' i t, h'.1 = B.id → submit m n k h h' i = .ok t → t.PlainTo B.id) :
    AllT (Task1.PlainTo B.id) (softmaxLoop A B a submit) := by
  unfold softmaxLoop
  at_
  exact h _ _ _ _ _ _ _ (by hid) ‹_›
theorem softmaxInplaceAsync_plain (al : α) (A B : Tensor) (a : Int) : AllT (Task1.PlainTo B.id) (softmaxInplaceAsync A al B a) := by
  unfold softmaxInplaceAsync
  refine bind_plain (bind_plain (bind_plain (bind_plain (AllT.bind fun _ _ => bind_plain (AllT.bind fun _ _ => bind_plain (bind_plain (softmaxLoop_plain fun m n k h h' i t hd e => ?_)))))))
  cases Except.ok.inj e
  exact Plain.task1 (by md) (by hid) (fun a b => by unfold softmaxInplaceKernel; sz)
theorem transposeAsync_plain (al : α) (A B : Tensor) (n : Int) : AllT (Task1.PlainTo B.id) (transposeAsync al A B n) := by
  unfold transposeAsync
  at_
  exact Plain.task1 (by md) (by hid) (fun a b => by unfold transposeKernel; sz)
theorem softmaxAsync_plain (al : α) (A C B : Tensor) (a : Int) : AllT (Task1.PlainTo B.id) (softmaxAsync A C al B a) := by
  unfold softmaxAsync
  refine bind_plain (bind_plain (bind_plain (bind_plain (bind_plain (AllT.bind fun _ _ => bind_plain (AllT.bind fun _ _ => bind_plain (bind_plain (bind_plain (bind_plain (softmaxLoop_plain fun m n k h h' i t hd e => ?_))))))))))
  rw [M.bind_eq_ok] at e
  obtain ⟨_, _, e⟩ := e
  cases Except.ok.inj e
  exact Plain.task2 (by md) (by hid) (fun a a' b => by unfold softmaxKernel; sz)
theorem logsumexpAsync_plain (A B : Tensor) : AllT (Task1.PlainTo B.id) (logsumexpAsync A B : M (List (Task1 α))) := by
  unfold logsumexpAsync
  at_
  exact Plain.task1 (by md) (by hid) (fun a b => by unfold logsumexpKernel; sz)
theorem subtractIndexedAsync_plain (f : α → Int) (v : α) (A B : Tensor) : AllT (Task1.PlainTo B.id) (subtractIndexedAsync f v A B) := by
  unfold subtractIndexedAsync
  at_
  exact Plain.task1 (by md) (by hid) (fun a b => by unfold subtractIndexedKernel; sz)

/-- The task is not one of `total_sum_accum`. -/
def Task1.NotTotal (t : Task1 α) : Prop := t.codelet ≠ "total_sum_accum"

omit [FP α] in
theorem NotTotal.of {t : Task1 α} {c : String} (e : t.codelet = c) (h : c ≠ "total_sum_accum") : t.NotTotal := fun h' => h (e ▸ h')
attribute [local irreducible] Task1.NotTotal

theorem clearAsync_notTotal (A : Tensor) : AllT Task1.NotTotal (clearAsync A : M (List (Task1 α))) := by
  unfold clearAsync loop0
  at_
  exact NotTotal.of (c := "clear") rfl (by decide)
theorem maxsumexpAsync_notTotal (A B : Tensor) (a : Int) (r : Bool) : AllT Task1.NotTotal (maxsumexpAsync A B a r : M (List (Task1 α))) := by
  unfold maxsumexpAsync
  at_
  exact NotTotal.of (c := "maxsumexp") rfl (by decide)
theorem logsumexpAsync_notTotal (A B : Tensor) : AllT Task1.NotTotal (logsumexpAsync A B : M (List (Task1 α))) := by
  unfold logsumexpAsync
  at_
  exact NotTotal.of (c := "logsumexp") rfl (by decide)
theorem subtractIndexedAsync_notTotal (f : α → Int) (v : α) (A B : Tensor) : AllT Task1.NotTotal (subtractIndexedAsync f v A B) := by
  unfold subtractIndexedAsync
  at_
  exact NotTotal.of (c := "subtract_indexed_outputs") rfl (by decide)
theorem softmaxAsync_notTotal (al : α) (A C B : Tensor) (a : Int) : AllT Task1.NotTotal (softmaxAsync A C al B a) := by
  unfold softmaxAsync softmaxLoop
  at_
  rename_i t e
  rw [M.bind_eq_ok] at e
  obtain ⟨_, _, e⟩ := e
  cases Except.ok.inj e
  exact NotTotal.of (c := "softmax") rfl (by decide)
end

end NNTile
