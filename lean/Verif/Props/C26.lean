import Verif.Lib.Schedule
/-!
# C26 — results do not depend on the task schedule
-/
namespace NNTile
variable {α : Type _}

/-- Task number `i` is executed before task number `j` in the order `order`. -/
def ExecutedBefore (order : List Nat) (i j : Nat) : Prop := [i, j].Sublist order

/-- `order` is a schedule of `n` submitted tasks: each is executed exactly once, and of two tasks one of which writes a handle that
the other one accesses, the one submitted first is executed first. -/
structure IsSchedule (tasks : List (Task α)) (order : List Nat) : Prop where
  each_once : order.Perm (List.range tasks.length)
  dependencies : ∀ i j (hi : i < tasks.length) (hj : j < tasks.length), i < j → Conflict tasks[i] tasks[j] → ExecutedBefore order i j

/-- Execution of the submitted tasks in the given order of task numbers. -/
def execOrder (tasks : List (Task α)) (order : List Nat) (s : Store α) : M (Store α) :=
  runAll (order.filterMap (fun i => tasks[i]?)) s

/-- Every schedule that respects the access modes ends without error in exactly the store of the sequential execution. -/
theorem C26_schedule_independent (tasks : List (Task α)) (order : List Nat) (h : IsSchedule tasks order) (s s' : Store α)
    (hseq : runAll tasks s = .ok s') : execOrder tasks order s = .ok s' := by
  classical
  let noop : Task α := ⟨"", [], [], fun _ _ => .ok []⟩
  let task : Nat → Task α := fun i => tasks.getD i noop
  have e1 : (List.range tasks.length).map task = tasks := by
    apply List.ext_getElem
    · simp
    · intro i h1 h2
      simp only [List.length_map, List.length_range] at h1
      simp [task, h1]
  have e2 : ∀ o : List Nat, (∀ i ∈ o, i < tasks.length) → o.filterMap (fun i => tasks[i]?) = o.map task := by
    intro o
    induction o with
    | nil => intro _; rfl
    | cons i o ih =>
      intro ho
      have hi := ho i (by simp)
      simp only [List.filterMap_cons, List.getElem?_eq_getElem hi, List.map_cons]
      rw [ih (fun k hk => ho k (by simp [hk]))]
      simp [task, hi]
  have hmem : ∀ i ∈ order, i < tasks.length := by
    intro i hi
    have := h.each_once.subset hi
    simpa using this
  rw [execOrder, e2 order hmem]
  apply runAll_schedule task (List.nodup_range) h.each_once
  · intro i j hij hc
    have hi : i < tasks.length := by simpa using hij.subset (show i ∈ [i, j] by simp)
    have hj : j < tasks.length := by simpa using hij.subset (show j ∈ [i, j] by simp)
    have hlt : i < j := by
      have := List.Pairwise.sublist hij (List.pairwise_lt_range)
      simpa using this
    apply h.dependencies i j hi hj hlt
    simpa [task, hi, hj] using hc
  · rw [e1]; exact hseq

/-- Any two schedules of the same tasks agree. -/
theorem C26_schedules_agree (tasks : List (Task α)) (o₁ o₂ : List Nat) (h₁ : IsSchedule tasks o₁) (h₂ : IsSchedule tasks o₂)
    (s s' : Store α) (hseq : runAll tasks s = .ok s') : execOrder tasks o₁ s = execOrder tasks o₂ s := by
  rw [C26_schedule_independent tasks o₁ h₁ s s' hseq, C26_schedule_independent tasks o₂ h₂ s s' hseq]

/-- A task that writes the constant `v` to handle `h`. -/
def exampleWrite (h : Handle) (v : Nat) : Task Nat := ⟨"fill", [], [(h, .W)], fun _ ws => .ok (ws.map fun b => ⟨b.size, fun _ => some v⟩)⟩
/-- A task that copies handle `a` to handle `b`. -/
def exampleCopy (a b : Handle) : Task Nat := ⟨"copy", [a], [(b, .W)], fun rs _ => .ok rs⟩

/-- The hypotheses are satisfiable by a schedule that differs from the submission order. -/
example : IsSchedule [exampleWrite (0,0) 7, exampleWrite (0,1) 8, exampleCopy (0,0) (1,0)] [0, 2, 1] := by
  refine ⟨by decide, ?_⟩
  intro i j hi hj hij hc
  simp only [List.length_cons, List.length_nil] at hi hj
  have : (i = 0 ∧ j = 1) ∨ (i = 0 ∧ j = 2) ∨ (i = 1 ∧ j = 2) := by omega
  rcases this with ⟨rfl, rfl⟩ | ⟨rfl, rfl⟩ | ⟨rfl, rfl⟩
  · simp [ExecutedBefore]
  · simp [ExecutedBefore]
  · simp [Conflict, exampleWrite, exampleCopy, Task.outs] at hc
example : ∃ s', runAll [exampleWrite (0,0) 7, exampleWrite (0,1) 8, exampleCopy (0,0) (1,0)] (fun _ => Buf.undef 1) = .ok s' ∧
    (s' (1,0)).data 0 = some 7 := ⟨_, rfl, rfl⟩

end NNTile
