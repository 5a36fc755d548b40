import Verif.Model.Codelet
import Verif.Lib.Core
import Mathlib.Data.List.Induction
/-!
# C29: restricting and restoring codelet execution targets
-/
namespace NNTile

/-! ### Specification -/

/-- The setting after a history of calls (latest call first) for a codelet which supports the devices `D`: the latest call that is a
restoration or a restriction to supported devices decides; without one it is `D`. -/
def settingSpec (D : BitVec 32) : List WhereCall → BitVec 32
  | [] => D
  | .restore :: _ => D
  | .restrict w :: before => if (∀ i : Fin 32, w.getLsbD i = true → D.getLsbD i = true) then w else settingSpec D before

/-! ### One codelet -/

/-- Devices for which at least one implementation was given. -/
def supported (S : StarPU) (cpu cuda : List Bool) : BitVec 32 := (if true ∈ cpu then S.cpu else 0) ||| (if true ∈ cuda then S.cuda else 0)

private theorem addCpu_spec (S : StarPU) (fs : List Bool) (c : Codelet) :
    Codelet.addCpu S fs c = { c with
      cpu_funcs := c.cpu_funcs ++ fs
      where_ := if true ∈ fs then S.cpu else c.where_
      where_default := if true ∈ fs then S.cpu else c.where_default } := by
  induction fs generalizing c with
  | nil => simp [Codelet.addCpu]
  | cons f fs ih => cases f <;> simp [Codelet.addCpu, ih]

private theorem addCuda_spec (S : StarPU) (fs : List Bool) (c : Codelet) (hw : c.where_ = c.where_default) :
    Codelet.addCuda S fs c = { c with
      cuda_funcs := c.cuda_funcs ++ fs
      where_ := if true ∈ fs then c.where_default ||| S.cuda else c.where_default
      where_default := if true ∈ fs then c.where_default ||| S.cuda else c.where_default } := by
  induction fs generalizing c with
  | nil => cases c; simp only at hw; subst hw; simp [Codelet.addCuda]
  | cons f fs ih =>
    cases f
    · simp only [Codelet.addCuda, Bool.false_eq_true, if_false]
      rw [ih]
      · simp
      · exact hw
    · simp only [Codelet.addCuda, if_true]
      rw [ih _ rfl]
      by_cases h : true ∈ fs
      · simp [h, BitVec.or_assoc]
      · simp [h]

/-- Initialisation of a new codelet makes available exactly the kinds of devices for which an implementation was given, and fails iff more
implementations are given than StarPU allows. -/
theorem C29_init (S : StarPU) (cpu cuda : List Bool) :
    (Throws (Codelet.new.init S cpu cuda) ↔ cpu.length > S.maxImpl ∨ cuda.length > S.maxImpl) ∧
    ∀ c, Codelet.new.init S cpu cuda = .ok c → c.where_ = supported S cpu cuda ∧ c.where_default = supported S cpu cuda ∧
      c.cpu_funcs = cpu ∧ c.cuda_funcs = cuda := by
  constructor
  · rw [Codelet.init, throws_throwIf_bind]
    simp only
    rw [throws_throwIf_bind]
    constructor
    · rintro (h | ⟨-, h | ⟨-, m, h⟩⟩)
      · exact .inl h
      · exact .inr h
      · simp at h
    · rintro (h | h)
      · exact .inl h
      · by_cases h' : cpu.length > S.maxImpl
        · exact .inl h'
        · exact .inr ⟨h', .inl h⟩
  · intro c h
    rw [Codelet.init] at h
    by_cases h1 : cpu.length > S.maxImpl
    · rw [throwIf_pos h1] at h; simp at h
    rw [throwIf_neg h1, M.bind_ok] at h
    by_cases h2 : cuda.length > S.maxImpl
    · simp only [throwIf_pos h2] at h; simp at h
    simp only [throwIf_neg h2, M.bind_ok] at h
    rw [addCpu_spec, addCuda_spec _ _ _ rfl] at h
    injection h with h
    subst h
    simp only [supported, Codelet.new, List.nil_append]
    refine ⟨?_, ?_, trivial, trivial⟩ <;> (split <;> simp)

private theorem subset_iff (D w : BitVec 32) : D &&& w = w ↔ ∀ i : Fin 32, w.getLsbD i = true → D.getLsbD i = true := by
  constructor
  · intro h i hi
    have := congrArg (fun v => v.getLsbD i) h
    simp only [BitVec.getLsbD_and, hi, Bool.and_true] at this
    exact this
  · intro h
    apply BitVec.eq_of_getLsbD_eq
    intro i hlt
    rw [BitVec.getLsbD_and]
    cases hw : w.getLsbD i
    · simp
    · simp [h ⟨i, hlt⟩ hw]

private theorem apply_spec (k : WhereCall) (c : Codelet) (before : List WhereCall) (hc : c.where_ = settingSpec c.where_default before) :
    k.apply c = { c with where_ := settingSpec c.where_default (k :: before) } := by
  cases k with
  | restore => rfl
  | restrict w =>
    simp only [WhereCall.apply, Codelet.restrict_where, settingSpec]
    by_cases h : c.where_default &&& w = w
    · rw [if_pos h, if_pos ((subset_iff _ _).1 h)]
    · rw [if_neg h, if_neg (fun h' => h ((subset_iff _ _).2 h')), ← hc]

/-- **Main theorem.** After any history of restrictions and restorations of an initialised codelet, the current setting is the one decided by
the latest effective call; nothing else has changed. -/
theorem C29_history (S : StarPU) (cpu cuda : List Bool) (c : Codelet) (hc : Codelet.new.init S cpu cuda = .ok c) (calls : List WhereCall) :
    (calls.foldl (fun c k => k.apply c) c) = { c with where_ := settingSpec (supported S cpu cuda) calls.reverse } := by
  obtain ⟨h1, h2, -, -⟩ := (C29_init S cpu cuda).2 c hc
  induction calls using List.reverseRecOn with
  | nil =>
    simp only [List.foldl_nil, List.reverse_nil, settingSpec]
    cases c; simp only at h1; subst h1; rfl
  | append_singleton calls k ih =>
    rw [List.foldl_append, ih, List.reverse_append]
    simp only [List.foldl_cons, List.foldl_nil, List.reverse_cons, List.reverse_nil, List.nil_append, List.singleton_append]
    rw [apply_spec k _ calls.reverse (by simp [h2])]
    simp [h2]

/-- No history enables a kind of device without implementation. -/
theorem C29_never_enables (S : StarPU) (cpu cuda : List Bool) (c : Codelet) (hc : Codelet.new.init S cpu cuda = .ok c) (calls : List WhereCall)
    (i : Nat) (hi : (calls.foldl (fun c k => k.apply c) c).where_.getLsbD i = true) : (supported S cpu cuda).getLsbD i = true := by
  rw [C29_history S cpu cuda c hc] at hi
  simp only at hi
  generalize calls.reverse = l at hi
  induction l with
  | nil => exact hi
  | cons k l ih => cases k with
    | restore => exact hi
    | restrict w =>
      simp only [settingSpec] at hi
      split at hi
      · rename_i h; exact h ⟨i, BitVec.lt_of_getLsbD hi⟩ hi
      · exact ih hi

/-- Restoring after any history brings back the original setting; restricting to devices of which one is not supported changes nothing;
restricting to supported devices sets exactly those. -/
theorem C29_calls (S : StarPU) (cpu cuda : List Bool) (c0 : Codelet) (hc : Codelet.new.init S cpu cuda = .ok c0) (calls : List WhereCall)
    (c : Codelet) (h : calls.foldl (fun c k => k.apply c) c0 = c) :
    c.restore_where = c0 ∧
    (∀ w i, w.getLsbD i = true → (supported S cpu cuda).getLsbD i = false → c.restrict_where w = c) ∧
    (∀ w, (∀ i, w.getLsbD i = true → (supported S cpu cuda).getLsbD i = true) → (c.restrict_where w).where_ = w) := by
  obtain ⟨h1, h2, -, -⟩ := (C29_init S cpu cuda).2 c0 hc
  rw [C29_history S cpu cuda c0 hc] at h
  subst h
  refine ⟨?_, ?_, ?_⟩
  · cases c0
    simp only at h1 h2
    subst h1 h2
    rfl
  · intro w i hw hs
    rw [Codelet.restrict_where, if_neg]
    intro h
    rw [subset_iff] at h
    have := h ⟨i, BitVec.lt_of_getLsbD hw⟩ hw
    simp only at this
    rw [h2, hs] at this
    exact absurd this (by simp)
  · intro w hw
    rw [Codelet.restrict_where, if_pos]
    rw [subset_iff]
    intro i hi
    rw [h2]
    exact hw i hi

/-! ### The whole library -/

private theorem onAll_spec (f : Codelet → Codelet) (ops : List String) (hn : ops.Nodup) (cs : Codelets) (k : String) :
    cs.onAll f ops k = if k ∈ ops then (cs k).map f else cs k := by
  induction ops using List.reverseRecOn with
  | nil => simp [Codelets.onAll]
  | append_singleton ops op ih =>
    have hn' := List.nodup_append.1 hn
    have := ih hn'.1
    simp only [Codelets.onAll, List.foldl_append, List.foldl_cons, List.foldl_nil] at this ⊢
    by_cases hk : k = op
    · subst hk
      have hne : k ∉ ops := fun h => hn'.2.2 k h k (by simp) rfl
      rw [if_pos rfl, this, if_neg hne]
      simp
    · rw [if_neg hk, this]
      simp [hk]

/-- The library calls reach each codelet of each operation that `init` sets up: a library-wide history acts on each of them like the same
history of calls on that codelet. -/
theorem C29_library (cs : Codelets) (calls : List WhereCall) (op : String) (hop : op ∈ initCalls) :
    calls.foldl (fun cs k => k.applyAll cs) cs op = (cs op).map (fun c => calls.foldl (fun c k => k.apply c) c) := by
  have e1 : restrictCalls.Nodup := by decide
  have e2 : restoreCalls.Nodup := by decide
  have s1 : initCalls ⊆ restrictCalls := by decide
  have s2 : initCalls ⊆ restoreCalls := by decide
  induction calls using List.reverseRecOn with
  | nil => simp
  | append_singleton calls k ih =>
    simp only [List.foldl_append, List.foldl_cons, List.foldl_nil]
    cases k with
    | restrict w =>
      show restrictAll w _ op = _
      rw [restrictAll]
      rw [onAll_spec _ _ e1, if_pos (s1 hop), ih, List.map_map]
      rfl
    | restore =>
      show restoreAll _ op = _
      rw [restoreAll]
      rw [onAll_spec _ _ e2, if_pos (s2 hop), ih, List.map_map]
      rfl

/-- Concrete case: a codelet with a CPU and a CUDA implementation (masks of StarPU 1.4) restricted to CUDA, then to an unsupported mask, then restored. -/
example : ∃ c, Codelet.new.init ⟨2#32, 8#32, 4⟩ [true] [true] = .ok c ∧ c.where_ = 10#32 ∧
    (c.restrict_where 8#32).where_ = 8#32 ∧ ((c.restrict_where 8#32).restrict_where 16#32).where_ = 8#32 ∧
    ((c.restrict_where 8#32).restrict_where 16#32).restore_where = c :=
  ⟨⟨10#32, 10#32, [true], [true]⟩, rfl, rfl, rfl, rfl, rfl⟩

/-- A codelet without CUDA implementation (such as `subcopy`) cannot be moved to CUDA. -/
example : ∃ c, Codelet.new.init ⟨2#32, 8#32, 4⟩ [true] [] = .ok c ∧ (c.restrict_where 8#32) = c := ⟨⟨2#32, 2#32, [true], []⟩, rfl, rfl⟩

end NNTile
