import Verif.Lib.HandleStep
/-!
# Handles: disciplined use
-/
namespace NNTile.Handle

/-- The invariant of a disciplined history. -/
structure Held (w : World) : Prop where
  inv : Inv w
  held : ∀ d, w.held.countP (fun p => p.1 == d) = w.holders d
  ptrs : ∀ l, some l ∈ w.locals → l.ptr = (if l.acquired then l.data else none) ∧ (l.acquired = true → l.data.isSome)
  balance : ∀ d, w.acquisitions d = w.releases d + w.holders d

theorem Held.init : Held World.init := ⟨Inv.init, fun _ => rfl, by simp [World.init], fun _ => rfl⟩

theorem holders_le (w : World) (d : Nat) : w.holders d ≤ w.owners d := by
  have : w.holders d ≤ w.locals.countP (fun l => localData l == some d) := by
    refine List.countP_mono_left fun l _ h => ?_
    cases l with
    | none => cases h
    | some l =>
      simp only [Option.elim_some, Bool.and_eq_true] at h
      exact h.2
  unfold World.owners
  omega

theorem not_held {w : World} {d : Nat} (h : w.held.countP (fun p => p.1 == d) = 0) : d ∉ w.held.map Prod.fst := by
  intro hd
  obtain ⟨p, hp, rfl⟩ := List.mem_map.1 hd
  rw [List.countP_eq_zero] at h
  exact h p hp (by simp)

theorem is_held {w : World} {d : Nat} (h : 0 < w.held.countP (fun p => p.1 == d)) : d ∈ w.held.map Prod.fst := by
  obtain ⟨p, hp, e⟩ := List.countP_pos_iff.1 h
  exact List.mem_map.2 ⟨p, hp, by simpa using e⟩

/-- Same counts of acquisitions and releases. -/
def SameUse (w w' : World) : Prop := ∀ d, w'.acquisitions d = w.acquisitions d ∧ w'.releases d = w.releases d

theorem SameUse.of_eq {w w' : World} (h : w'.log = w.log) : SameUse w w' := fun d => by
  unfold World.acquisitions World.releases
  rw [h]
  exact ⟨rfl, rfl⟩

theorem SameUse.of_snoc {w w' : World} {e : Event} (he : e.isUse = false) (h : w'.log = w.log ++ [e]) : SameUse w w' := fun d => by
  unfold World.acquisitions World.releases
  rw [h, countP_snoc, countP_snoc]
  cases e with
  | register d' m => exact ⟨rfl, rfl⟩
  | unregister d' k => exact ⟨rfl, rfl⟩
  | acquire d' m => cases he
  | release d' => cases he

theorem SameUse.trans {w w' w'' : World} (h : SameUse w w') (h' : SameUse w' w'') : SameUse w w'' := fun d => by
  have h1 := h d
  have h2 := h' d
  omega

/-- The end of a shared pointer succeeds. -/
theorem Settled.runs {w : World} {o : Option Nat} (h : Settled w o) (hh : ∀ d, w.held.countP (fun p => p.1 == d) = w.holders d) :
    ∃ w', w.drop o = .ok w' ∧ Inv w' ∧ w'.locals = w.locals ∧ w'.handles = w.handles ∧ w'.held = w.held ∧ SameUse w w' := by
  cases o with
  | none => exact ⟨w, rfl, h.drop rfl, rfl, rfl, rfl, SameUse.of_eq rfl⟩
  | some d =>
    have hc := h.counts d
    simp only [beq_self_eq_true, one, if_true] at hc
    rcases drop_spec (w := w) (d := d) (by omega) with ⟨⟨h1, h2⟩, -⟩ | ⟨w', h1, c1, c2, c3, c4, c5, c6, c7⟩
    · have h3 := holders_le w d
      have h4 := hh d
      exact absurd h2 (not_held (by omega))
    · refine ⟨w', h1, h.drop h1, c2, c1, c3, ?_⟩
      rcases c7 with ⟨-, c7⟩ | ⟨-, c7⟩
      · exact SameUse.of_snoc rfl c7
      · exact SameUse.of_eq c7

theorem Held.same {w w' : World} (h : Held w) (hi : Inv w') (hl : w'.locals = w.locals) (hh : w'.held = w.held) (hu : SameUse w w') : Held w' := by
  have e : ∀ d, w'.holders d = w.holders d := fun d => by unfold World.holders; rw [hl]
  refine ⟨hi, fun d => ?_, by rw [hl]; exact h.ptrs, fun d => ?_⟩
  · rw [hh, e]
    exact h.held d
  · rw [e, (hu d).1, (hu d).2]
    exact h.balance d

theorem isSome_eq {α : Type} {o : Option α} (h : o.isSome) : ∃ x, o = some x := Option.isSome_iff_exists.1 h

/-- What a disciplined operation does. -/
def Good (w : World) (r : Res) : Prop := ∃ w', (r = .ok w' ∨ r = .raised w') ∧ Held w'

theorem Held.newHandle {w : World} (h : Held w) (size : Nat) (mode : Mode) : Good w (w.newHandle size mode) := by
  have key : ∃ w', (w.newHandle size mode = .ok w' ∨ w.newHandle size mode = .raised w') ∧ w'.locals = w.locals ∧ w'.held = w.held ∧ SameUse w w' := by
    unfold World.newHandle
    split_ifs with c
    · exact ⟨w, .inr rfl, rfl, rfl, SameUse.of_eq rfl⟩
    · cases deleter mode with
      | none => exact ⟨_, .inr rfl, rfl, rfl, SameUse.of_snoc (e := .register w.next mode) rfl rfl⟩
      | some k => exact ⟨_, .inl rfl, rfl, rfl, SameUse.of_snoc (e := .register w.next mode) rfl rfl⟩
  obtain ⟨w', e, h1, h2, h3⟩ := key
  exact ⟨w', e, h.same (h.inv.newHandle e) h1 h2 h3⟩

theorem Held.assignHandle {w : World} (h : Held w) {i j : Nat} {old new : Option Nat} (hi : w.dataOf i = some old) (hj : w.dataOf j = some new) :
    Good w (World.drop { w.retain new with handles := (w.retain new).handles.set i (.live new) } old) := by
  obtain ⟨w', e, h1, h2, h3, h4, h5⟩ := (h.inv.assignHandle hi hj).runs (by
    intro d
    dsimp only
    unfold World.holders
    dsimp only
    rw [retain_held, retain_locals]
    exact h.held d)
  refine ⟨w', .inl e, h.same h1 (h2.trans (retain_locals _ _)) (h4.trans (retain_held _ _)) (SameUse.trans (SameUse.of_eq ?_) h5)⟩
  exact retain_log _ _

theorem Held.resetHandle {w : World} (h : Held w) {i : Nat} {old : Option Nat} {v : Var} (hv : v.data = none) (hi : w.dataOf i = some old) :
    Good w (World.drop { w with handles := w.handles.set i v } old) := by
  obtain ⟨w', e, h1, h2, h3, h4, h5⟩ := (h.inv.resetHandle hv hi).runs (fun d => h.held d)
  exact ⟨w', .inl e, h.same h1 h2 h4 (SameUse.trans (SameUse.of_eq rfl) h5)⟩

theorem mem_set_local {l : List (Option LocalData)} {j : Nat} {x : Option LocalData} {y : LocalData} (h : some y ∈ l.set j x) : some y ∈ l ∨ x = some y := by
  rcases List.mem_or_eq_of_mem_set h with h | h
  · exact .inl h
  · exact .inr h.symm

theorem acquisitions_acquire {w w' : World} {d : Nat} {m : Mode} (h : w'.log = w.log ++ [.acquire d m]) (d' : Nat) :
    w'.acquisitions d' = w.acquisitions d' + one (d == d') ∧ w'.releases d' = w.releases d' := by
  unfold World.acquisitions World.releases
  rw [h, countP_snoc, countP_snoc]
  exact ⟨rfl, rfl⟩

theorem acquisitions_release {w w' : World} {d : Nat} (h : w'.log = w.log ++ [.release d]) (d' : Nat) :
    w'.acquisitions d' = w.acquisitions d' ∧ w'.releases d' = w.releases d' + one (d == d') := by
  unfold World.acquisitions World.releases
  rw [h, countP_snoc, countP_snoc]
  refine ⟨rfl, ?_⟩
  have : ((Event.release d == Event.release d') : Bool) = (d == d') := by
    rw [Bool.eq_iff_iff]
    simp
  rw [this]

theorem Held.acquireHandle {w : World} (h : Held w) {i d : Nat} {mode : Mode} {fails : Bool} (hi : w.dataOf i = some (some d)) (hb : ¬ w.blocks d mode) :
    Good w (w.acquireHandle i mode fails) := by
  have hinv := fun w' e => h.inv.acquireHandle (i := i) (mode := mode) (fails := fails) (w' := w') e
  unfold Good
  unfold World.acquireHandle at hinv ⊢
  simp only [hi] at hinv ⊢
  cases fails with
  | true =>
    simp only [World.starpuAcquire, if_true] at hinv ⊢
    obtain ⟨w', e, h1, h2, h3, h4, h5⟩ := (h.inv.retained hi).runs (by
      intro d
      unfold World.holders
      rw [retain_held, retain_locals]
      exact h.held d)
    rw [e]
    exact ⟨w', .inr rfl, h.same h1 h2 h4 (SameUse.trans (SameUse.of_eq rfl) h5)⟩
  | false =>
    have hb' : ¬ (w.retain (some d)).blocks d mode := hb
    simp only [World.starpuAcquire, Bool.false_eq_true, if_false, if_neg hb'] at hinv ⊢
    refine ⟨_, .inl rfl, hinv _ (.inl rfl), fun d' => ?_, ?_, fun d' => ?_⟩
    · have := h.held d'
      simp only [World.holders] at this ⊢
      rw [countP_snoc, List.countP_cons]
      simp only [Option.elim_some, Bool.true_and, Option.some_beq_some]
      change List.countP _ w.held + one (d == d') = List.countP _ w.locals + one (d == d')
      omega
    · intro l hl
      rcases List.mem_append.1 hl with hl | hl
      · exact h.ptrs l hl
      · obtain rfl := Option.some.inj (List.mem_singleton.1 hl)
        exact ⟨rfl, fun _ => rfl⟩
    · obtain ⟨e1, e2⟩ := acquisitions_acquire (w := w) (w' := { w.retain (some d) with held := (d, mode) :: (w.retain (some d)).held, log := (w.retain (some d)).log ++ [.acquire d mode], locals := (w.retain (some d)).locals ++ [some ⟨some d, some d, true⟩] }) (d := d) (m := mode) rfl d'
      refine e1.trans ?_
      refine Eq.trans ?_ (congrArg (· + _) e2.symm)
      have hb := h.balance d'
      simp only [World.holders] at hb ⊢
      rw [countP_snoc]
      simp only [Option.elim_some, Bool.true_and, Option.some_beq_some]
      change _ = _ + (List.countP _ w.locals + one (d == d'))
      omega

theorem Held.localAcquire {w : World} (h : Held w) {j d : Nat} {l : LocalData} {mode : Mode} {fails : Bool} (hj : w.localOf j = some l) (ha : l.acquired = false) (hd : l.data = some d)
    (hb : ¬ w.blocks d mode) : Good w (w.localAcquire j mode fails) := by
  have hinv := fun w' e => h.inv.localAcquire (j := j) (mode := mode) (fails := fails) (w' := w') e
  unfold Good
  unfold World.localAcquire at hinv ⊢
  simp only [hj, hd] at hinv ⊢
  cases fails with
  | true =>
    simp only [World.starpuAcquire, if_true, Res.bind] at hinv ⊢
    exact ⟨w, .inr rfl, h⟩
  | false =>
    simp only [World.starpuAcquire, Bool.false_eq_true, if_false, if_neg hb, Res.bind] at hinv ⊢
    have hs := fun d' => countP_set_one (p := fun l : Option LocalData => l.elim false fun l => l.acquired && l.data == some d') (a := some ⟨some d, some d, true⟩) (local_of hj)
    simp only [Option.elim_some, Bool.true_and, Option.some_beq_some, ha, Bool.false_and, one, Bool.false_eq_true, if_false, Nat.add_zero] at hs
    refine ⟨_, .inl rfl, hinv _ (.inl rfl), fun d' => ?_, ?_, fun d' => ?_⟩
    · have := h.held d'
      simp only [World.holders] at this ⊢
      rw [hs, List.countP_cons]
      dsimp only
      omega
    · intro l' hl
      rcases mem_set_local hl with hl | hl
      · exact h.ptrs l' hl
      · obtain rfl := Option.some.inj hl
        exact ⟨rfl, fun _ => rfl⟩
    · obtain ⟨e1, e2⟩ := acquisitions_acquire (w := w) (w' := { w with held := (d, mode) :: w.held, log := w.log ++ [.acquire d mode], locals := w.locals.set j (some ⟨some d, some d, true⟩) })
        (d := d) (m := mode) rfl d'
      refine e1.trans ?_
      refine Eq.trans ?_ (congrArg (· + _) e2.symm)
      have hb := h.balance d'
      simp only [World.holders] at hb ⊢
      rw [hs]
      simp only [one]
      omega

theorem countP_eraseP_key {d d' : Nat} : ∀ {l : List (Nat × Mode)}, d ∈ l.map Prod.fst → (l.eraseP (fun p => p.1 == d)).countP (fun p => p.1 == d') + one (d == d') = l.countP (fun p => p.1 == d')
  | [], h => by cases h
  | p :: l, h => by
    by_cases c : p.1 = d
    · rw [List.eraseP_cons_of_pos (by simpa using c), List.countP_cons, c]
      rfl
    · have h' : d ∈ l.map Prod.fst := by
        rw [List.map_cons, List.mem_cons] at h
        exact h.resolve_left (Ne.symm c)
      rw [List.eraseP_cons_of_neg (by simpa using c), List.countP_cons, List.countP_cons]
      have := countP_eraseP_key (d := d) (d' := d') h'
      omega

/-- A release by a local object which holds an acquisition. -/
theorem Held.localRelease {w : World} (h : Held w) {j : Nat} {l : LocalData} (hj : w.localOf j = some l) (ha : l.acquired = true) :
    ∃ w', w.localRelease j = .ok w' ∧ Held w' ∧ w'.locals = w.locals.set j (some ⟨l.data, none, false⟩) := by
  obtain ⟨-, hsome⟩ := h.ptrs l (List.mem_of_getElem? (local_of hj))
  obtain ⟨d, hd⟩ := isSome_eq (hsome ha)
  have hs := fun d' => countP_set_one (p := fun l : Option LocalData => l.elim false fun l => l.acquired && l.data == some d') (a := some ⟨some d, none, false⟩) (local_of hj)
  simp only [Option.elim_some, Bool.true_and, Option.some_beq_some, ha, hd, Bool.false_and, one, Bool.false_eq_true, if_false, Nat.add_zero] at hs
  have hm : d ∈ w.held.map Prod.fst := by
    refine is_held ?_
    have h1 := h.held d
    have h2 := hs d
    simp only [World.holders, beq_self_eq_true, if_true] at h1 h2
    omega
  have e : w.localRelease j = .ok { w with held := w.held.eraseP (fun p => p.1 == d), log := w.log ++ [.release d], locals := w.locals.set j (some ⟨some d, none, false⟩) } := by
    unfold World.localRelease World.starpuRelease
    simp only [hj, hd, if_pos hm]
    rfl
  refine ⟨_, e, ⟨h.inv.localRelease (.inl e), fun d' => ?_, ?_, fun d' => ?_⟩, by rw [hd]⟩
  · have h1 := h.held d'
    have h2 := hs d'
    simp only [World.holders] at h1 ⊢
    have h3 := countP_eraseP_key (d' := d') hm
    simp only [one] at h3
    omega
  · intro l' hl
    rcases mem_set_local hl with hl | hl
    · exact h.ptrs l' hl
    · obtain rfl := Option.some.inj hl
      exact ⟨rfl, fun c => by cases c⟩
  · obtain ⟨e1, e2⟩ := acquisitions_release (w := w) (w' := { w with held := w.held.eraseP (fun p => p.1 == d), log := w.log ++ [.release d], locals := w.locals.set j (some ⟨some d, none, false⟩) })
      (d := d) rfl d'
    refine e1.trans ?_
    refine Eq.trans ?_ (congrArg (· + _) e2.symm)
    have hb := h.balance d'
    have h2 := hs d'
    simp only [World.holders, one] at hb ⊢
    omega

theorem Held.copyLocal {w : World} (h : Held w) {j : Nat} {l : LocalData} (hj : w.localOf j = some l) (ha : l.acquired = false) :
    Held { w.retain l.data with locals := (w.retain l.data).locals ++ [some l] } := by
  have e : ∀ d, World.holders { w.retain l.data with locals := (w.retain l.data).locals ++ [some l] } d = w.holders d := fun d => by
    unfold World.holders
    dsimp only
    rw [countP_snoc, retain_locals]
    simp [ha, one]
  refine ⟨h.inv.copyLocal hj, fun d => ?_, ?_, fun d => ?_⟩
  · rw [e]
    dsimp only
    rw [retain_held]
    exact h.held d
  · intro l' hl
    rw [retain_locals] at hl
    rcases List.mem_append.1 hl with hl | hl
    · exact h.ptrs l' hl
    · obtain rfl := Option.some.inj (List.mem_singleton.1 hl)
      exact h.ptrs l' (List.mem_of_getElem? (local_of hj))
  · obtain ⟨e1, e2⟩ := SameUse.of_eq (w := w) (w' := { w.retain l.data with locals := (w.retain l.data).locals ++ [some l] }) (retain_log _ _) d
    rw [e, e1, e2]
    exact h.balance d

/-- The world after a local object was overwritten which holds no acquisition. -/
theorem holders_set {w : World} {j : Nat} {l : LocalData} {x : Option LocalData} (hj : w.locals[j]? = some (some l)) (ha : l.acquired = false) (hx : ∀ y, x = some y → y.acquired = false) (d : Nat) :
    (w.locals.set j x).countP (fun l => l.elim false fun l => l.acquired && l.data == some d) = w.holders d := by
  have hs := countP_set_one (p := fun l : Option LocalData => l.elim false fun l => l.acquired && l.data == some d) (a := x) hj
  have h0 : (x.elim false fun l => l.acquired && l.data == some d) = false := by
    cases x with
    | none => rfl
    | some y => simp [hx y rfl]
  simp only [h0, Option.elim_some, ha, Bool.false_and] at hs
  unfold World.holders
  omega

theorem Held.assignLocal {w : World} (h : Held w) {i j : Nat} {old new : LocalData} (hi : w.localOf i = some old) (hj : w.localOf j = some new) (ha : old.acquired = false)
    (hb : new.acquired = false) : Good w (World.drop { w.retain new.data with locals := (w.retain new.data).locals.set i (some new) } old.data) := by
  have e : ∀ d, World.holders { w.retain new.data with locals := (w.retain new.data).locals.set i (some new) } d = w.holders d := fun d => by
    unfold World.holders
    dsimp only
    rw [retain_locals]
    exact holders_set (local_of hi) ha (fun y hy => by cases hy; exact hb) d
  obtain ⟨w', e', h1, h2, h3, h4, h5⟩ := (h.inv.assignLocal hi hj).runs (fun d => by
    rw [e]
    dsimp only
    rw [retain_held]
    exact h.held d)
  refine ⟨w', .inl e', h1, fun d => ?_, ?_, fun d => ?_⟩
  · rw [h4]
    dsimp only
    rw [retain_held, h.held d]
    unfold World.holders at e ⊢
    rw [h2]
    exact (e d).symm
  · intro l hl
    rw [h2] at hl
    dsimp only at hl
    rw [retain_locals] at hl
    rcases mem_set_local hl with hl | hl
    · exact h.ptrs l hl
    · obtain rfl := Option.some.inj hl
      exact h.ptrs new (List.mem_of_getElem? (local_of hj))
  · obtain ⟨e1, e2⟩ := (SameUse.trans (SameUse.of_eq (w := w) (w' := { w.retain new.data with locals := (w.retain new.data).locals.set i (some new) }) (retain_log _ _)) h5) d
    have e3 : w'.holders d = w.holders d := by
      rw [← e d]
      unfold World.holders
      rw [h2]
    rw [e1, e2, e3]
    exact h.balance d

theorem Held.endLocal {w : World} (h : Held w) {j : Nat} {l : LocalData} (hj : w.locals[j]? = some (some l)) (ha : l.acquired = false) :
    Good w (World.drop { w with locals := w.locals.set j none } l.data) := by
  have e : ∀ d, World.holders { w with locals := w.locals.set j none } d = w.holders d := fun d => holders_set hj ha (fun y hy => by cases hy) d
  obtain ⟨w', e', h1, h2, h3, h4, h5⟩ := (h.inv.endLocal hj).runs (fun d => by
    rw [e]
    exact h.held d)
  have e3 : ∀ d, w'.holders d = w.holders d := fun d => by
    rw [← e d]
    unfold World.holders
    rw [h2]
  refine ⟨w', .inl e', h1, fun d => ?_, ?_, fun d => ?_⟩
  · rw [h4, e3]
    exact h.held d
  · intro l hl
    rw [h2] at hl
    rcases mem_set_local hl with hl | hl
    · exact h.ptrs l hl
    · cases hl
  · obtain ⟨e1, e2⟩ := (SameUse.trans (SameUse.of_eq (w := w) (w' := { w with locals := w.locals.set j none }) rfl) h5) d
    rw [e1, e2, e3]
    exact h.balance d

theorem Held.destroyLocal {w : World} (h : Held w) {j : Nat} {l : LocalData} (hj : w.localOf j = some l) : Good w (w.destroyLocal j) := by
  unfold Good World.destroyLocal
  simp only [hj]
  cases ha : l.acquired with
  | true =>
    obtain ⟨w1, e, h1, h2⟩ := h.localRelease hj ha
    obtain ⟨hlt, -⟩ := List.getElem?_eq_some_iff.1 (local_of hj)
    simp only [if_true, e, Res.bind]
    exact h1.endLocal (l := ⟨l.data, none, false⟩) (by rw [h2, List.getElem?_set_self hlt]) rfl
  | false =>
    simp only [Bool.false_eq_true, if_false, Res.bind]
    exact h.endLocal (local_of hj) ha

/-- A disciplined operation ends, normally or by an exception. -/
theorem Held.step {w : World} (h : Held w) {op : Op} (hp : Proper w op) : Good w (step w op) := by
  cases op with
  | newHandle size mode => exact h.newHandle size mode
  | nullHandle => exact ⟨_, .inl rfl, h.same h.inv.nullHandle rfl rfl (SameUse.of_eq rfl)⟩
  | copyHandle i =>
    obtain ⟨o, hi⟩ := isSome_eq hp
    refine ⟨_, .inl (by simp only [Handle.step, World.copyHandle, hi]), h.same (h.inv.copyHandle hi) (retain_locals _ _) (retain_held _ _) (SameUse.of_eq (retain_log _ _))⟩
  | assignHandle i j =>
    obtain ⟨o, hi⟩ := isSome_eq hp.1
    obtain ⟨o', hj⟩ := isSome_eq hp.2
    simp only [Handle.step, World.assignHandle, hi, hj]
    exact h.assignHandle hi hj
  | unregister i =>
    obtain ⟨o, hi⟩ := isSome_eq hp
    simp only [Handle.step, World.unregister, hi]
    exact h.resetHandle rfl hi
  | destroyHandle i =>
    obtain ⟨o, hi⟩ := isSome_eq hp
    simp only [Handle.step, World.destroyHandle, hi]
    exact h.resetHandle rfl hi
  | acquireHandle i mode fails =>
    obtain ⟨d, hi, hb⟩ := hp
    exact h.acquireHandle hi hb
  | localAcquire j mode fails =>
    obtain ⟨l, d, hj, ha, hd, hb⟩ := hp
    exact h.localAcquire hj ha hd hb
  | localRelease j =>
    obtain ⟨l, hj, ha⟩ := hp
    obtain ⟨w', e, h1, -⟩ := h.localRelease hj ha
    exact ⟨w', .inl e, h1⟩
  | copyLocal j =>
    obtain ⟨l, hj, ha⟩ := hp
    exact ⟨_, .inl (by simp only [Handle.step, World.copyLocal, hj]), h.copyLocal hj ha⟩
  | assignLocal i j =>
    obtain ⟨l, l', hi, hj, ha, hb⟩ := hp
    simp only [Handle.step, World.assignLocal, hi, hj]
    exact h.assignLocal hi hj ha hb
  | destroyLocal j =>
    obtain ⟨l, hj⟩ := isSome_eq hp
    exact h.destroyLocal hj

/-- A disciplined history ends, and the invariant holds. -/
theorem Held.run : ∀ {ops : List Op} {w : World}, Held w → ProperRun w ops → ∃ w', run w ops = .ok w' ∧ Held w'
  | [], w, h, _ => ⟨w, rfl, h⟩
  | op :: ops, w, h, hp => by
    obtain ⟨w1, e, h1⟩ := h.step hp.1
    obtain ⟨w', e', h'⟩ := Held.run h1 (hp.2 w1 e)
    refine ⟨w', ?_, h'⟩
    unfold Handle.run
    rcases e with e | e <;> rw [e] <;> exact e'

end NNTile.Handle
