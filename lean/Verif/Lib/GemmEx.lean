import Verif.Model.GemmEx
import Verif.Lib.GemmTensor
import Verif.Lib.Store
/-!
# `gemm_ex` is `gemm` of the rounded factors
-/
namespace NNTile
variable {α : Type}

/-- The task `gemm_ex` which belongs to a task `gemm`: the factors are rounded first. -/
def Task1.rounded (r : α → α) (t : Task1 α) : Task1 α := ⟨"gemm_ex", t.reads, t.out, t.mode, fun rs b => t.fn (rs.map (Buf.rounded r)) b⟩

theorem gemmExKernel_eq [FP α] (r : α → α) (tA tB : TransOp) (m n k : Nat) {bt : Nat} (hb : bt < 2^31) (alpha : α) (A B : Buf α) (beta : α) (C : Buf α) :
    gemmExKernel r tA tB m n k bt alpha A B beta C = gemmKernel tA tB m n k bt alpha (A.rounded r) (B.rounded r) beta C := by
  unfold gemmExKernel gemmKernel cublasGemmEx
  by_cases h : bt = 1
  · subst h
    simp only [if_true, forN, Nat.zero_mul, M.bind_ok]
  · rw [if_neg h, if_neg (by omega)]

theorem submitGemmEx_eq [FP α] (r : α → α) (tA tB : TransOp) {m n k bt : Nat} (hm : m < 2^31) (hn : n < 2^31) (hk : k < 2^31) (hb : bt < 2^31) (alpha : α) (A B : Handle) (beta : α) (C : Handle)
    (redux : Bool) : submitGemmEx true r tA tB m n k bt alpha A B beta C redux = .ok ((submitGemm tA tB m n k bt alpha A B beta C redux).rounded r) := by
  unfold submitGemmEx
  rw [throwIf_neg (by omega), M.bind_ok, throwIf_neg (by omega), M.bind_ok, throwIf_neg (by omega), M.bind_ok, throwIf_neg (by simp), M.bind_ok]
  simp only [submitGemm, Task1.rounded, task2]
  congr 2
  funext rs b
  match rs with
  | [] => rfl
  | [_] => rfl
  | [a, a'] => exact gemmExKernel_eq r tA tB m n k hb alpha a a' beta b
  | _ :: _ :: _ :: _ => rfl

/-! ### Maps of task lists -/

theorem map_bind_M {β γ δ : Type _} (x : M β) (f : β → M γ) (g : γ → δ) : Except.map g (x >>= f) = x >>= fun a => Except.map g (f a) := by
  cases x <;> rfl

theorem forTasks_map {τ σ : Type _} {n : Nat} {f : Nat → M (List τ)} {f' : Nat → M (List σ)} (g : τ → σ) (h : ∀ i, i < n → f' i = (f i).map (List.map g)) :
    forTasks n f' = (forTasks n f).map (List.map g) := by
  induction n with
  | zero => rfl
  | succ n ih =>
    simp only [forTasks]
    rw [ih (fun i hi => h i (by omega)), h n (by omega)]
    cases forTasks n f with
    | error e => rfl
    | ok l =>
      cases f n with
      | error e => rfl
      | ok l' =>
        show Except.ok _ = Except.ok _
        rw [List.map_append]

theorem forTasks_cons_map {τ σ : Type _} {n : Nat} {f : Nat → M (List τ)} {f' : Nat → M (List σ)} (g : τ → σ) (t : τ) (h : ∀ i, i < n → f' i = (f i).map (List.map g)) :
    (forTasks n f' >>= fun l => .ok (g t :: l)) = Except.map (List.map g) (forTasks n f >>= fun l => .ok (t :: l)) := by
  rw [forTasks_map g h]
  cases forTasks n f <;> rfl

theorem sel_lt {t : TransOp} {a b n : Nat} (ha : a < n) (hb : b < n) : t.sel a b < n := by cases t <;> assumption

theorem handleL_map {T : Tensor} {i : Nat} {β γ : Type _} {F : Handle → M β} {F' : Handle → M γ} (g : β → γ) (h : i < T.ntiles → ∀ k, F' k = (F k).map g) :
    (T.handleL i >>= F') = (T.handleL i >>= F).map g := by
  unfold Tensor.handleL
  by_cases hi : i < T.ntiles
  · rw [if_pos hi, M.bind_ok, M.bind_ok, h hi]
  · rw [if_neg hi]; rfl

/-- No tile has more elements than an `int` can count. -/
def Tensor.TilesFit (T : Tensor) : Prop := ∀ i, i < T.ntiles → (T.tshapeL i).prod < 2^31

theorem msRows_le {S : List Nat} (h : Pos S) (d : Nat) : msRows S d ≤ S.prod := by
  have e : S.prod = (S.take d).prod * (S.drop d).prod := by rw [← List.prod_append, List.take_append_drop]
  have p : 0 < (S.drop d).prod := Pos.prod (fun x hx => h x (List.mem_of_mem_drop hx))
  rw [msRows, e]
  exact Nat.le_mul_of_pos_right _ p

theorem msCols_le {S : List Nat} (h : Pos S) (d : Nat) : msCols S d ≤ S.prod := by
  have e : S.prod = (S.take d).prod * (S.drop d).prod := by rw [← List.prod_append, List.take_append_drop]
  have p : 0 < (S.take d).prod := Pos.prod (fun x hx => h x (List.mem_of_mem_take hx))
  rw [msCols, e]
  exact Nat.le_mul_of_pos_left _ p

theorem tshapeL_pos {T : Tensor} (h : T.WF) {i : Nat} : Pos (T.tshapeL i) := h.tshape_pos (unlin_inBox T.grid_pos i)

/-- `gemm_ex` submits the tasks of `gemm` with rounded factors. -/
theorem gemmEx_map [FP α] {A B C : Tensor} (hA : A.WF) (hC : C.WF) (fA : A.TilesFit) (fC : C.TilesFit) (r : α → α) (alpha beta : α) (tA tB : TransOp) (nd bt : Int) (redux : Bool) :
    gemmExAsync true r alpha tA A tB B beta C nd bt redux = (gemmAsync alpha tA A tB B beta C nd bt redux).map (List.map (Task1.rounded r)) := by
  unfold gemmExAsync gemmAsync
  rw [map_bind_M]
  congr 1
  funext _
  dsimp only
  refine forTasks_map _ fun b _ => forTasks_map _ fun j _ => forTasks_map _ fun i _ => ?_
  refine handleL_map _ fun hc C' => handleL_map _ fun ha A' => handleL_map _ fun _ B' => ?_
  have c1 := fC _ hc
  generalize hS : C.tshapeL _ = S at c1 ⊢
  have cp : Pos S := by rw [← hS]; exact tshapeL_pos hC
  have m1 := fun d => (msRows_le cp d).trans_lt c1
  have m2 := fun d => (msCols_le cp d).trans_lt c1
  have key : ∀ a, a < A.ntiles → ∀ d e nd, tA.sel (msCols (A.tshapeL a) d / nd) (msRows (A.tshapeL a) e) < 2^31 :=
    fun a ha d e nd => sel_lt ((Nat.div_le_self _ _).trans_lt ((msCols_le (tshapeL_pos hA) d).trans_lt (fA a ha))) ((msRows_le (tshapeL_pos hA) e).trans_lt (fA a ha))
  rw [submitGemmEx_eq r tA tB (m1 _) ((Nat.div_le_self _ _).trans_lt (m2 _)) (key _ ha _ _ _) (m2 _), M.bind_ok]
  refine forTasks_cons_map _ _ fun l _ => handleL_map _ fun ha' A' => handleL_map _ fun _ B' => ?_
  rw [submitGemmEx_eq r tA tB (m1 _) ((Nat.div_le_self _ _).trans_lt (m2 _)) (key _ ha' _ _ _) (m2 _), M.bind_ok]
  rfl

/-! ### Execution -/

/-- The store in which all tensors but `c` are rounded. -/
def roundStore (r : α → α) (c : Nat) (s : Store α) : Store α := fun h => if h.1 = c then s h else (s h).rounded r

theorem exec_rounded (r : α → α) {t : Task1 α} {c : Nat} (ho : t.out.1 = c) (hr : ∀ x ∈ t.reads, x.1 ≠ c) {s u : Store α} (h : t.toTask.exec (roundStore r c s) = .ok u) :
    ∃ s', (t.rounded r).toTask.exec s = .ok s' ∧ u = roundStore r c s' ∧ OnlyChanged [c] s s' := by
  unfold Task.exec at h ⊢
  by_cases hc : ¬ t.toTask.outs.Nodup ∨ ∃ h ∈ t.toTask.outs, h ∈ t.toTask.reads
  · rw [if_pos hc] at h; cases h
  rw [if_neg hc] at h
  rw [if_neg (show ¬ (¬ (t.rounded r).toTask.outs.Nodup ∨ ∃ h ∈ (t.rounded r).toTask.outs, h ∈ (t.rounded r).toTask.reads) from hc)]
  obtain ⟨out, e, hu⟩ := M.bind_eq_ok.1 h
  have hu := Except.ok.inj hu
  simp only [Task1.toTask, List.map_cons, List.map_nil] at e
  obtain ⟨b, e', hb⟩ := M.bind_eq_ok.1 e
  have hb := Except.ok.inj hb
  have e1 : t.reads.map (roundStore r c s) = (t.reads.map s).map (Buf.rounded r) := by
    rw [List.map_map]
    refine List.map_congr_left fun x hx => ?_
    simp only [roundStore, if_neg (hr x hx), Function.comp_apply]
  have e2 : (roundStore r c s).view (t.out, t.mode) = s.view (t.out, t.mode) := by
    simp only [Store.view, roundStore, ho, if_true]
  rw [e1, e2] at e'
  refine ⟨s.setAll [t.out] [b], ?_, ?_, ?_⟩
  · simp only [Task1.toTask, Task1.rounded, List.map_cons, List.map_nil, e', M.bind_ok, Task.outs]
  · rw [← hu, ← hb]
    funext k
    simp only [Task.outs, Task1.toTask, List.map_cons, List.map_nil, Store.setAll, roundStore]
    by_cases hk : k = t.out
    · rw [if_pos hk, if_pos hk, if_pos (by rw [hk, ho])]
    · rw [if_neg hk, if_neg hk]
  · intro k hk
    simp only [Store.setAll]
    rw [if_neg (fun e => hk (by simp [e, ho]))]

theorem run_rounded (r : α → α) {c : Nat} {ts : List (Task1 α)} (h : ∀ t ∈ ts, t.out.1 = c ∧ ∀ x ∈ t.reads, x.1 ≠ c) {s u : Store α} (hu : runAll1 ts (roundStore r c s) = .ok u) :
    ∃ s', runAll1 (ts.map (Task1.rounded r)) s = .ok s' ∧ u = roundStore r c s' ∧ OnlyChanged [c] s s' := by
  induction ts generalizing s with
  | nil => exact ⟨s, rfl, (Except.ok.inj hu).symm, fun _ _ => rfl⟩
  | cons t ts ih =>
    simp only [runAll1, List.map_cons, runAll] at hu ⊢
    obtain ⟨u1, e1, hu⟩ := M.bind_eq_ok.1 hu
    obtain ⟨s1, f1, rfl, o1⟩ := exec_rounded r (h t (by simp)).1 (h t (by simp)).2 e1
    obtain ⟨s2, f2, e2, o2⟩ := ih (fun t ht => h t (by simp [ht])) hu
    refine ⟨s2, ?_, e2, fun k hk => (o2 k hk).trans (o1 k hk)⟩
    rw [f1, M.bind_ok]
    exact f2

theorem Tensor.Ready.roundStore {T : Tensor} {s : Store α} (h : T.Ready s) (r : α → α) (c : Nat) : T.Ready (roundStore r c s) := by
  refine ⟨h.1, fun i hi => ?_⟩
  rw [← h.2 i hi]
  unfold NNTile.roundStore
  split <;> rfl

theorem Tensor.Holds.roundStore {T : Tensor} {s : Store α} {x : List Nat → α} (h : T.Holds s x) (r : α → α) {c : Nat} (hc : T.id ≠ c) : T.Holds (roundStore r c s) (fun I => r (x I)) := by
  intro I hI
  have := h I hI
  have e : NNTile.roundStore r c s (T.hOf I) = (s (T.hOf I)).rounded r := if_neg hc
  rw [Tensor.get] at this ⊢
  rw [e]
  show Option.map r _ = _
  rw [this]; rfl

theorem Tensor.holds_roundStore_self {T : Tensor} {s : Store α} {x : List Nat → α} (r : α → α) : T.Holds (NNTile.roundStore r T.id s) x ↔ T.Holds s x := by
  simp only [Tensor.Holds, Tensor.get, NNTile.roundStore, Tensor.hOf, if_true]

end NNTile
