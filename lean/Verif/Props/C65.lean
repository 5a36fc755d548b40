import Verif.Lib.HandleStep
/-!
# C65: every registered data is unregistered exactly once, when the last object which refers to it ends
-/
namespace NNTile.Handle

theorem not_other {m : Mode} {k : Kind} (h : deleter m = some k) : m ≠ .other := by
  rintro rfl
  cases h

/-- **The life of data.** After every history of constructions, copies, assignments, unregistrations, destructions, acquisitions and releases (in which nothing undefined happens and which does not wait
forever), every data is in one of four states: it is not registered yet; it is registered, and some object refers to it; no object refers to it, and it was unregistered exactly once, by the call which its
mode demands, after all calls about it; or it was registered with an invalid mode. -/
theorem _root_.NNTile.C65_lifecycle {ops : List Op} {w : World} (h : run World.init ops = .ok w) (d : Nat) : w.Unborn d ∨ w.Alive d ∨ w.Gone d ∨ w.Lost d := by
  have hi := Inv.init.run h
  have hc := hi.counts d
  rcases hi.life.1 d with ⟨h1, h2⟩ | ⟨m, us, h1, h2, h3, h4⟩ | ⟨m, us, k, h1, h2, h3, h4⟩ | ⟨h1, h2⟩
  · exact .inl ⟨h1, by omega⟩
  · exact .inr (.inl ⟨m, us, h1, h2, not_other h3, by omega⟩)
  · exact .inr (.inr (.inl ⟨m, us, k, h1, h2, h3, by omega⟩))
  · exact .inr (.inr (.inr ⟨h1, by omega⟩))

/-- **No leaks.** Data which was registered with a valid mode and to which no object refers any more is unregistered. -/
theorem _root_.NNTile.C65_no_leak {ops : List Op} {w : World} (h : run World.init ops = .ok w) {d : Nat} {m : Mode} (hm : m ≠ .other) (hr : .register d m ∈ w.log) (ho : w.owners d = 0) : w.Gone d := by
  have hmem : Event.register d m ∈ w.eventsOf d := List.mem_filter.2 ⟨hr, by simp [Event.data]⟩
  rcases C65_lifecycle h d with h | ⟨_, _, _, _, _, h⟩ | h | h
  · rw [h.1] at hmem
    cases hmem
  · omega
  · exact h
  · rw [h.1, List.mem_singleton] at hmem
    exact absurd (by injection hmem) hm

/-- **No early end.** Data to which some object refers is not unregistered. -/
theorem _root_.NNTile.C65_kept {ops : List Op} {w : World} (h : run World.init ops = .ok w) {d : Nat} (ho : 0 < w.owners d) : w.Alive d ∧ ∀ k, .unregister d k ∉ w.log := by
  rcases C65_lifecycle h d with h | h | ⟨_, _, _, _, _, _, h⟩ | h
  · have := h.2
    omega
  · refine ⟨h, fun k hk => ?_⟩
    obtain ⟨m, us, h1, h2, -⟩ := h
    have hmem : Event.unregister d k ∈ w.eventsOf d := List.mem_filter.2 ⟨hk, by simp [Event.data]⟩
    rw [h1] at hmem
    rcases List.mem_cons.1 hmem with c | c
    · cases c
    · have := h2 _ c
      cases this
  · omega
  · have := h.2
    omega

theorem dataOf_set {w w' : World} {i : Nat} {o : Option Nat} (hi : w.dataOf i = some o) (h : w'.handles = w.handles.set i (.live none)) : w'.dataOf i = some none := by
  obtain ⟨hlt, -⟩ := List.getElem?_eq_some_iff.1 (handle_of hi)
  unfold World.dataOf
  rw [h, List.getElem?_set_self hlt]

/-- What `unregister()` does to handles. -/
theorem unregister_ok {w w' : World} {i : Nat} (h : step w (.unregister i) = .ok w') : ∃ o, w.dataOf i = some o ∧ w'.handles = w.handles.set i (.live none) := by
  simp only [step, World.unregister] at h
  cases hi : w.dataOf i with
  | none => rw [hi] at h; cases h
  | some o =>
    rw [hi] at h
    exact ⟨o, rfl, (drop_ok h).1⟩

theorem unregister_not_raised {w w' : World} {i : Nat} : step w (.unregister i) ≠ .raised w' := by
  intro h
  simp only [step, World.unregister] at h
  cases hi : w.dataOf i with
  | none => rw [hi] at h; cases h
  | some o =>
    rw [hi] at h
    exact drop_not_raised h

theorem set_self {α : Type} {l : List α} {i : Nat} {x : α} (h : l[i]? = some x) : l.set i x = l := by
  obtain ⟨hlt, hx⟩ := List.getElem?_eq_some_iff.1 h
  rw [← hx]
  exact List.set_getElem_self hlt

/-- Nothing happens when a null handle is unregistered. -/
theorem unregister_null {w : World} {i : Nat} (h : w.dataOf i = some none) : step w (.unregister i) = .ok w := by
  simp only [step, World.unregister, h, World.drop]
  rw [set_self (handle_of h)]

/-- **`unregister()` twice.** The second call does nothing. -/
theorem _root_.NNTile.C65_unregister_twice {w w' : World} {i : Nat} (h : step w (.unregister i) = .ok w') : step w' (.unregister i) = .ok w' := by
  obtain ⟨o, hi, hs⟩ := unregister_ok h
  exact unregister_null (dataOf_set hi hs)

theorem dataOf_none_keep {w w' : World} {i j : Nat} (hi : w.dataOf i = some none) (h : w'.handles = w.handles.set j (.live none)) : w'.dataOf i = some none := by
  have hg := handle_of hi
  obtain ⟨hlt, hx⟩ := List.getElem?_eq_some_iff.1 hg
  unfold World.dataOf
  rw [h, List.getElem?_set]
  by_cases c : j = i
  · subst c
    rw [if_pos rfl, if_pos hlt]
  · rw [if_neg c, hg]

theorem tensor_unregister : ∀ {tiles : List Nat} {w w' : World}, run w (tensorUnregister tiles) = .ok w' →
    (∀ i ∈ tiles, w'.dataOf i = some none) ∧ (∀ i, w.dataOf i = some none → w'.dataOf i = some none) ∧ w'.locals = w.locals ∧
      ∀ i, i ∉ tiles → w'.handles[i]? = w.handles[i]?
  | [], w, w', h => by
    cases h
    exact ⟨by simp, fun _ h => h, rfl, fun _ _ => rfl⟩
  | j :: tiles, w, w', h => by
    rw [tensorUnregister, List.map_cons] at h
    unfold run at h
    cases e : step w (.unregister j) with
    | ok w1 =>
      simp only [e] at h
      obtain ⟨o, hj, hs⟩ := unregister_ok e
      obtain ⟨c1, c2, c3, c4⟩ := tensor_unregister (tiles := tiles) h
      refine ⟨fun i hi => ?_, fun i hi => c2 i (dataOf_none_keep hi hs), ?_, fun i hi => ?_⟩
      · rcases List.mem_cons.1 hi with rfl | hi
        · exact c2 i (dataOf_set hj hs)
        · exact c1 i hi
      · rw [c3]
        simp only [step, World.unregister, hj] at e
        exact (drop_ok e).2.1
      · rw [List.mem_cons, not_or] at hi
        rw [c4 i hi.2, hs, List.getElem?_set_ne (Ne.symm hi.1)]
    | raised w1 => exact absurd e unregister_not_raised
    | ub => simp only [e] at h; cases h
    | stuck => simp only [e] at h; cases h

theorem tensor_again : ∀ {tiles : List Nat} {w : World}, (∀ i ∈ tiles, w.dataOf i = some none) → run w (tensorUnregister tiles) = .ok w
  | [], _, _ => rfl
  | i :: tiles, w, h => by
    rw [tensorUnregister, List.map_cons]
    unfold run
    rw [unregister_null (h i (by simp))]
    exact tensor_again (tiles := tiles) fun i hi => h i (List.mem_cons_of_mem _ hi)

theorem run_append : ∀ {ops ops' : List Op} {w w' : World}, run w ops = .ok w' → run w (ops ++ ops') = run w' ops'
  | [], _, _, _, h => by cases h; rfl
  | op :: ops, ops', w, w', h => by
    rw [List.cons_append]
    unfold run at h
    have hu : run w (op :: (ops ++ ops')) = match step w op with | .ok w => run w (ops ++ ops') | .raised w => run w (ops ++ ops') | .ub => .ub | .stuck => .stuck := rfl
    rw [hu]
    cases e : step w op with
    | ok w1 => simp only [e] at h ⊢; exact run_append h
    | raised w1 => simp only [e] at h ⊢; exact run_append h
    | ub => simp only [e] at h; cases h
    | stuck => simp only [e] at h; cases h

/-- The log after an operation extends the log before. -/
def Ext (l : List Event) : Res → Prop
  | .ok w => l <+: w.log
  | .raised w => l <+: w.log
  | _ => True

theorem Ext.bind {l : List Event} {r : Res} {f : World → Res} (h : Ext l r) (hf : ∀ w, l <+: w.log → Ext l (f w)) : Ext l (r.bind f) := by
  cases r with
  | ok w => exact hf w h
  | raised w => exact h
  | ub => trivial
  | stuck => trivial

theorem Ext.drop {l : List Event} {w : World} (h : l <+: w.log) (o : Option Nat) : Ext l (w.drop o) := by
  unfold World.drop
  split
  · exact h
  · split_ifs
    · trivial
    · trivial
    · exact h.trans (List.prefix_append _ _)
    · exact h

theorem retain_ext {l : List Event} {w : World} (h : l <+: w.log) (o : Option Nat) : l <+: (w.retain o).log := by rw [retain_log]; exact h

theorem Ext.acquire {l : List Event} {w : World} (h : l <+: w.log) (o : Option Nat) (m : Mode) (b : Bool) : Ext l (w.starpuAcquire o m b) := by
  unfold World.starpuAcquire
  split
  · trivial
  · split_ifs
    · exact h
    · trivial
    · exact h.trans (List.prefix_append _ _)

theorem Ext.release {l : List Event} {w : World} (h : l <+: w.log) (o : Option Nat) : Ext l (w.starpuRelease o) := by
  unfold World.starpuRelease
  split
  · trivial
  · split_ifs
    · exact h.trans (List.prefix_append _ _)
    · trivial

theorem Ext.localRelease {l : List Event} {w : World} (h : l <+: w.log) (j : Nat) : Ext l (w.localRelease j) := by
  unfold World.localRelease
  split
  · trivial
  · exact (Ext.release h _).bind fun _ h => h

theorem Ext.step (w : World) (op : Op) : Ext w.log (Handle.step w op) := by
  have h : w.log <+: w.log := List.prefix_rfl
  cases op with
  | newHandle size mode =>
    simp only [Handle.step, World.newHandle]
    split_ifs
    · exact h
    · cases deleter mode with
      | none => exact List.prefix_append _ _
      | some k => exact List.prefix_append _ _
  | nullHandle => exact h
  | copyHandle i =>
    simp only [Handle.step, World.copyHandle]
    split
    · trivial
    · exact retain_ext h _
  | assignHandle i j =>
    simp only [Handle.step, World.assignHandle]
    split
    · exact Ext.drop (by exact retain_ext h _) _
    · trivial
  | unregister i =>
    simp only [Handle.step, World.unregister]
    split
    · trivial
    · exact Ext.drop (by exact h) _
  | destroyHandle i =>
    simp only [Handle.step, World.destroyHandle]
    split
    · trivial
    · exact Ext.drop (by exact h) _
  | acquireHandle i mode fails =>
    simp only [Handle.step, World.acquireHandle]
    split
    · trivial
    · rename_i o _
      have h1 := Ext.acquire (retain_ext h o) o mode fails
      cases e : (w.retain o).starpuAcquire o mode fails with
      | ok w1 => rw [e] at h1; exact h1
      | raised w1 => rw [e] at h1; exact (Ext.drop h1 o).bind fun _ h => h
      | ub => trivial
      | stuck => trivial
  | localAcquire j mode fails =>
    simp only [Handle.step, World.localAcquire]
    split
    · trivial
    · exact (Ext.acquire h _ _ _).bind fun _ h => h
  | localRelease j => exact Ext.localRelease h j
  | copyLocal j =>
    simp only [Handle.step, World.copyLocal]
    split
    · trivial
    · exact retain_ext h _
  | assignLocal i j =>
    simp only [Handle.step, World.assignLocal]
    split
    · exact Ext.drop (by exact retain_ext h _) _
    · trivial
  | destroyLocal j =>
    simp only [Handle.step, World.destroyLocal]
    split
    · trivial
    · refine Ext.bind (l := w.log) ?_ fun w1 h1 => Ext.drop (by exact h1) _
      split_ifs
      · exact Ext.localRelease h j
      · exact h

theorem run_log : ∀ {ops : List Op} {w w' : World}, run w ops = .ok w' → w.log <+: w'.log
  | [], _, _, h => by cases h; exact List.prefix_rfl
  | op :: ops, w, w', h => by
    have hs := Ext.step w op
    unfold run at h
    cases e : Handle.step w op with
    | ok w1 => rw [e] at hs; simp only [e] at h; exact hs.trans (run_log h)
    | raised w1 => rw [e] at hs; simp only [e] at h; exact hs.trans (run_log h)
    | ub => simp only [e] at h; cases h
    | stuck => simp only [e] at h; cases h

/-- The calls about `d` before are the first of the calls about it after. -/
theorem run_events {ops : List Op} {w w' : World} (h : run w ops = .ok w') (d : Nat) : ∃ t, w'.eventsOf d = w.eventsOf d ++ t := by
  obtain ⟨t, ht⟩ := run_log h
  exact ⟨t.filter (fun e => e.data == d), by rw [World.eventsOf, ← ht, List.filter_append]; rfl⟩

theorem register_once {w w' : World} {d : Nat} {m : Mode} {us t : List Event} (e1 : w.eventsOf d = .register d m :: us) (e2 : w'.eventsOf d = w.eventsOf d ++ t) :
    w'.eventsOf d = .register d m :: (us ++ t) := by rw [e2, e1, List.cons_append]

/-- **For ever.** Once data is unregistered, no history which follows does anything to it. -/
theorem _root_.NNTile.C65_gone_stays {ops ops' : List Op} {w w' : World} (h : run World.init ops = .ok w) (h' : run w ops' = .ok w') {d : Nat} (hd : w.Gone d) : w'.Gone d ∧ w'.eventsOf d = w.eventsOf d := by
  have hr : run World.init (ops ++ ops') = .ok w' := (run_append h).trans h'
  obtain ⟨t, ht⟩ := run_events h' d
  obtain ⟨m, us, k, e1, e2, e3, e4⟩ := hd
  have e5 := e1
  rw [List.cons_append] at e5
  have e6 := register_once e5 ht
  rcases C65_lifecycle hr d with hx | ⟨m', us', f1, f2, -, -⟩ | ⟨m', us', k', f1, f2, f3, f4⟩ | hx
  · rw [hx.1] at e6
    cases e6
  · rw [f1] at e6
    injection e6 with _ e6
    have := f2 (.unregister d k) (by rw [e6]; simp)
    cases this
  · have e7 := e6
    rw [f1, List.cons_append] at e7
    injection e7 with e7 e8
    have e9 : t = [] := by
      rcases List.eq_nil_or_concat t with c | ⟨t', x, c⟩
      · exact c
      · exfalso
        rw [c, List.concat_eq_append, ← List.append_assoc] at e8
        have e10 := (List.append_inj' e8 rfl).1
        have := f2 (.unregister d k) (by rw [e10]; simp)
        cases this
    refine ⟨⟨m', us', k', f1, f2, f3, f4⟩, ?_⟩
    rw [ht, e9, List.append_nil]
  · rw [hx.1] at e6
    injection e6 with _ e6
    have := congrArg List.length e6
    simp at this

/-- **`Tensor::unregister()`.** After any history, it resets the handles of the tiles of the tensor and no other; data of its tiles to which no other object refers (e.g. a `Tile` which `get_tile` returned) is
unregistered, other data is kept; a second call does nothing. -/
theorem _root_.NNTile.C65_tensor {ops : List Op} {tiles : List Nat} {w w' : World} (h : run World.init ops = .ok w) (h' : run w (tensorUnregister tiles) = .ok w') :
    (∀ i ∈ tiles, w'.dataOf i = some none) ∧ (∀ i, i ∉ tiles → w'.handles[i]? = w.handles[i]?) ∧ w'.locals = w.locals ∧
      (∀ d, w.Alive d → (w'.owners d = 0 → w'.Gone d) ∧ (0 < w'.owners d → w'.Alive d)) ∧ run w' (tensorUnregister tiles) = .ok w' := by
  obtain ⟨c1, -, c3, c4⟩ := tensor_unregister h'
  have hr : run World.init (ops ++ tensorUnregister tiles) = .ok w' := (run_append h).trans h'
  refine ⟨c1, c4, c3, fun d hd => ⟨fun ho => ?_, fun ho => (C65_kept hr ho).1⟩, tensor_again c1⟩
  obtain ⟨t, ht⟩ := run_events h' d
  obtain ⟨m, us, e1, -, e3, -⟩ := hd
  have e2 := register_once e1 ht
  rcases C65_lifecycle hr d with hx | ⟨_, _, _, _, _, hx⟩ | hx | hx
  · rw [hx.1] at e2
    cases e2
  · omega
  · exact hx
  · rw [hx.1] at e2
    injection e2 with e2 _
    injection e2 with _ e2
    exact absurd e2.symm e3

/-- **The exception.** A handle which is constructed with an invalid mode registers data, raises, and this data is never unregistered, whatever follows. -/
theorem _root_.NNTile.C65_invalid_mode {ops ops' : List Op} {w w' : World} {size : Nat} (hs : 0 < size) (h : run World.init ops = .ok w) (h' : run w (.newHandle size .other :: ops') = .ok w') :
    (∃ w1, step w (.newHandle size .other) = .raised w1) ∧ w'.Lost w.next := by
  have e : step w (.newHandle size .other) = .raised { w with next := w.next + 1, log := w.log ++ [.register w.next .other] } := by
    simp only [step, World.newHandle, deleter]
    rw [if_neg (by omega)]
  refine ⟨⟨_, e⟩, ?_⟩
  have hr : run World.init (ops ++ .newHandle size .other :: ops') = .ok w' := (run_append h).trans h'
  unfold run at h'
  simp only [e] at h'
  obtain ⟨t, ht⟩ := run_events h' w.next
  have hi := (Inv.init.run h).life.2 w.next (Nat.le_refl _)
  have e1 : World.eventsOf { w with next := w.next + 1, log := w.log ++ [.register w.next .other] } w.next = [.register w.next .other] := by
    unfold World.eventsOf
    rw [filter_add_same (d := w.next) (by rfl), hi]
    rfl
  have e2 := register_once e1 ht
  rcases C65_lifecycle hr w.next with hx | ⟨m, us, f1, -, f2, -⟩ | ⟨m, us, k, f1, -, f2, -⟩ | hx
  · rw [hx.1] at e2
    cases e2
  · rw [f1] at e2
    injection e2 with e2 _
    injection e2 with _ e2
    exact absurd e2 f2
  · rw [f1, List.cons_append] at e2
    injection e2 with e2 _
    injection e2 with _ e2
    rw [e2] at f2
    cases f2
  · exact hx

/-- A handle of size zero raises before anything is registered. -/
theorem _root_.NNTile.C65_zero_size (w : World) (m : Mode) : step w (.newHandle 0 m) = .raised w := rfl

/-- A history with shared data: two handles are copied and reset in turns, a tile is acquired, an acquisition fails, the handle of the tile is unregistered before the local object ends. -/
example : ∃ w, run World.init [.newHandle 4 .r, .newHandle 8 .rw, .copyHandle 0, .assignHandle 1 0, .newHandle 4 .other, .acquireHandle 0 .r false, .acquireHandle 2 .r true, .unregister 0, .unregister 0,
      .destroyHandle 1, .destroyHandle 2, .destroyLocal 0] = .ok w ∧
    w.log = [.register 0 .r, .register 1 .rw, .unregister 1 .coherent, .register 2 .other, .acquire 0 .r, .release 0, .unregister 0 .noCoherency] := ⟨_, rfl, rfl⟩

end NNTile.Handle
