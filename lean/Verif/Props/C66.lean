import Verif.Lib.HandleHeld
import Verif.Props.C65
/-!
# C66: acquired data is released exactly once, and a pointer to local memory is valid while it can be read
-/
namespace NNTile.Handle

/-- **Disciplined use.** If local objects are copied and assigned only while they are released, acquired only while released, released only while acquired, data is acquired only through handles which are not
null and only if no acquisition which excludes it is outstanding: the history ends (nothing undefined happens and it does not wait forever); for all data the releases are as many as the acquisitions,
except for those which local objects hold; a local object gives a pointer exactly while it holds its acquisition, the pointer points to its own data, and this data is registered and not unregistered.
Missing: histories which copy an acquired local object, release or acquire one twice, or acquire through a null handle; all of these the classes allow, and there the property is false. -/
theorem _root_.NNTile.C66_disciplined_partial {ops : List Op} (h : ProperRun World.init ops) : ∃ w, run World.init ops = .ok w ∧ (∀ d, w.acquisitions d = w.releases d + w.holders d) ∧
    ∀ j l, w.localOf j = some l → l.ptr = (if l.acquired then l.data else none) ∧ ∀ d, l.ptr = some d → l.data = some d ∧ w.Alive d ∧ ∀ k, .unregister d k ∉ w.log := by
  obtain ⟨w, e, hw⟩ := Held.init.run h
  refine ⟨w, e, hw.balance, fun j l hj => ?_⟩
  have hm : some l ∈ w.locals := List.mem_of_getElem? (local_of hj)
  obtain ⟨h1, h2⟩ := hw.ptrs l hm
  refine ⟨h1, fun d hd => ?_⟩
  rw [h1] at hd
  have hd' : l.data = some d := by
    split_ifs at hd
    exact hd
  exact ⟨hd', C65_kept e (local_owner hj hd')⟩

/-- **At the end.** When all local objects are destroyed or released, every acquisition is released. -/
theorem _root_.NNTile.C66_all_released {ops : List Op} (h : ProperRun World.init ops) {w : World} (hw : run World.init ops = .ok w) (hl : ∀ j l, w.localOf j = some l → l.acquired = false) (d : Nat) :
    w.acquisitions d = w.releases d := by
  obtain ⟨w', e, h'⟩ := Held.init.run h
  rw [hw] at e
  cases e
  have h0 : w.holders d = 0 := by
    refine List.countP_eq_zero.2 fun x hx => ?_
    cases x with
    | none => simp
    | some l =>
      obtain ⟨j, hj⟩ := List.mem_iff_getElem?.1 hx
      have := hl j l (by rw [World.localOf, hj]; rfl)
      simp [this]
  rw [h'.balance d, h0, Nat.add_zero]

/-- The usual use is disciplined, whatever else was done before: acquire a tile through its handle, release it, destroy the local object; or acquire, and destroy. -/
theorem _root_.NNTile.C66_scope {ops : List Op} {w : World} (h : ProperRun World.init ops) (hw : run World.init ops = .ok w) {i d : Nat} {mode : Mode} (hi : w.dataOf i = some (some d)) (hb : ¬ w.blocks d mode)
    {release : Bool} :
    ∃ w', run w ([.acquireHandle i mode false] ++ (if release then [.localRelease w.locals.length] else []) ++ [.destroyLocal w.locals.length]) = .ok w' ∧ w'.held = w.held ∧ w'.handles = w.handles ∧
      w'.locals = w.locals ++ [none] ∧ w'.log = w.log ++ [.acquire d mode, .release d] := by
  obtain ⟨w1, e, hH⟩ := Held.init.run h
  rw [hw] at e
  cases e
  have hu : 0 < w.use d := hH.inv.handle hi
  have hb' : ¬ (w.retain (some d)).blocks d mode := hb
  have e1 : step w (.acquireHandle i mode false) =
      .ok { w.retain (some d) with held := (d, mode) :: w.held, log := w.log ++ [.acquire d mode], locals := w.locals ++ [some ⟨some d, some d, true⟩] } := by
    simp only [step, World.acquireHandle, hi, World.starpuAcquire, Bool.false_eq_true, if_false, if_neg hb']
    rfl
  generalize hw1 : { w.retain (some d) with held := (d, mode) :: w.held, log := w.log ++ [Event.acquire d mode], locals := w.locals ++ [some (⟨some d, some d, true⟩ : LocalData)] } = w1 at e1
  have g1 : w1.localOf w.locals.length = some ⟨some d, some d, true⟩ := by rw [← hw1]; simp [World.localOf]
  have g2 : w1.use d = w.use d + 1 := by rw [← hw1]; simp [World.retain]
  have e2 : step w1 (.localRelease w.locals.length) =
      .ok { w.retain (some d) with held := w.held, log := w.log ++ [.acquire d mode, .release d], locals := w.locals ++ [some ⟨some d, none, false⟩] } := by
    simp only [step, World.localRelease, g1, World.starpuRelease]
    rw [if_pos (by rw [← hw1]; simp)]
    rw [← hw1]
    simp [Res.bind, World.retain]
  generalize hw2 : { w.retain (some d) with held := w.held, log := w.log ++ [Event.acquire d mode, Event.release d], locals := w.locals ++ [some (⟨some d, none, false⟩ : LocalData)] } = w2 at e2
  have g3 : w2.localOf w.locals.length = some ⟨some d, none, false⟩ := by rw [← hw2]; simp [World.localOf]
  have g4 : w2.use d = w.use d + 1 := by rw [← hw2]; simp [World.retain]
  have fin : ∃ w', World.drop { w2 with locals := w2.locals.set w.locals.length none } (some d) = .ok w' ∧ w'.held = w.held ∧ w'.handles = w.handles ∧ w'.locals = w.locals ++ [none] ∧
      w'.log = w.log ++ [.acquire d mode, .release d] := by
    rw [World.drop]
    dsimp only
    rw [if_neg (by omega), if_neg (by omega)]
    refine ⟨_, rfl, ?_⟩
    rw [← hw2]
    simp [World.retain]
  obtain ⟨w', e3, hf⟩ := fin
  refine ⟨w', ?_, hf⟩
  cases release with
  | true =>
    change run w [.acquireHandle i mode false, .localRelease w.locals.length, .destroyLocal w.locals.length] = _
    simp only [run, e1, e2]
    have : step w2 (.destroyLocal w.locals.length) = .ok w' := by
      simp only [step, World.destroyLocal, g3, Bool.false_eq_true, if_false, Res.bind]
      exact e3
    rw [this]
  | false =>
    change run w [.acquireHandle i mode false, .destroyLocal w.locals.length] = _
    simp only [run, e1]
    have : step w1 (.destroyLocal w.locals.length) = .ok w' := by
      simp only [step] at e2
      simp only [step, World.destroyLocal, g1, if_true, e2, Res.bind]
      exact e3
    rw [this]

/-- **A copy of a local object.** Both the object and its copy (the class has an implicit copy constructor) release the one acquisition; after the first, the copy still gives a pointer. -/
theorem _root_.NNTile.C66_copy {size : Nat} (hs : 0 < size) :
    (∃ w l, run World.init [.newHandle size .rw, .acquireHandle 0 .r false, .copyLocal 0, .destroyLocal 0] = .ok w ∧ w.localOf 1 = some l ∧ l.ptr = some 0 ∧ w.acquisitions 0 = w.releases 0) ∧
    run World.init [.newHandle size .rw, .acquireHandle 0 .r false, .copyLocal 0, .destroyLocal 0, .destroyLocal 1] = .ub := by
  obtain ⟨n, rfl⟩ := Nat.exists_eq_add_of_lt hs
  rw [Nat.zero_add]
  exact ⟨⟨_, _, rfl, rfl, rfl, rfl⟩, rfl⟩

/-- **Two calls of `release`.** -/
theorem _root_.NNTile.C66_release_twice {size : Nat} (hs : 0 < size) (m : Mode) : run World.init [.newHandle size .rw, .acquireHandle 0 m false, .localRelease 0, .localRelease 0] = .ub := by
  obtain ⟨n, rfl⟩ := Nat.exists_eq_add_of_lt hs
  rw [Nat.zero_add]
  cases m <;> rfl

/-- **Two calls of `acquire`.** Reading twice is possible, but the destructor releases once, so that the data cannot be unregistered; with any other mode the second call waits forever. -/
theorem _root_.NNTile.C66_acquire_twice {size : Nat} (hs : 0 < size) :
    run World.init [.newHandle size .rw, .acquireHandle 0 .r false, .localAcquire 0 .r false, .destroyLocal 0, .destroyHandle 0] = .stuck ∧
    ∀ m, m ≠ .r → run World.init [.newHandle size .rw, .acquireHandle 0 .r false, .localAcquire 0 m false] = .stuck := by
  obtain ⟨n, rfl⟩ := Nat.exists_eq_add_of_lt hs
  rw [Nat.zero_add]
  refine ⟨rfl, fun m hm => ?_⟩
  cases m with
  | r => exact absurd rfl hm
  | rw => rfl
  | w => rfl
  | scratch => rfl
  | other => rfl

/-- **After `unregister()`.** A handle which was unregistered gives a null pointer to StarPU when it is acquired. -/
theorem _root_.NNTile.C66_unregistered {w w' : World} {i : Nat} (h : step w (.unregister i) = .ok w') (m : Mode) (fails : Bool) : step w' (.acquireHandle i m fails) = .ub := by
  obtain ⟨o, hi, hs⟩ := unregister_ok h
  simp only [step, World.acquireHandle, dataOf_set hi hs, World.starpuAcquire]

/-- A disciplined history in which two local objects read the same data, one is acquired again, and the handle is unregistered before they end. -/
example : ProperRun World.init [.newHandle 4 .r, .acquireHandle 0 .r false, .acquireHandle 0 .r false, .localRelease 0, .localAcquire 0 .r true, .localAcquire 0 .r false, .unregister 0, .destroyLocal 1,
    .destroyLocal 0] ∧
    ∃ w, run World.init [.newHandle 4 .r, .acquireHandle 0 .r false, .acquireHandle 0 .r false, .localRelease 0, .localAcquire 0 .r true, .localAcquire 0 .r false, .unregister 0, .destroyLocal 1,
      .destroyLocal 0] = .ok w ∧ w.acquisitions 0 = 3 ∧ w.releases 0 = 3 ∧ w.Gone 0 := by
  refine ⟨?_, _, rfl, rfl, rfl, ?_⟩
  · refine ⟨trivial, fun w h => ?_⟩
    rcases h with h | h <;> cases h
    refine ⟨⟨0, rfl, by decide⟩, fun w h => ?_⟩
    rcases h with h | h <;> cases h
    refine ⟨⟨0, rfl, by decide⟩, fun w h => ?_⟩
    rcases h with h | h <;> cases h
    refine ⟨⟨_, rfl, rfl⟩, fun w h => ?_⟩
    rcases h with h | h <;> cases h
    refine ⟨⟨_, 0, rfl, rfl, rfl, by decide⟩, fun w h => ?_⟩
    rcases h with h | h <;> cases h
    refine ⟨⟨_, 0, rfl, rfl, rfl, by decide⟩, fun w h => ?_⟩
    rcases h with h | h <;> cases h
    refine ⟨rfl, fun w h => ?_⟩
    rcases h with h | h <;> cases h
    refine ⟨rfl, fun w h => ?_⟩
    rcases h with h | h <;> cases h
    exact ⟨rfl, fun w _ => trivial⟩
  · exact ⟨.r, [.acquire 0 .r, .acquire 0 .r, .release 0, .acquire 0 .r, .release 0, .release 0], .noCoherency, rfl, by decide, .r, rfl⟩

end NNTile.Handle
