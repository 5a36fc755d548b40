import Verif.Spec.Tile
import Verif.Lib.Copy
/-! Helper lemmas: tensors of one tile and calls with the same outcome. -/
namespace NNTile
variable {α : Type}

/-- Both fail in the same way or both return the same value. -/
def SimM {β : Type} (p q : M β) : Prop := (Throws p ∧ Throws q) ∨ (IsUB p ∧ IsUB q) ∨ ∃ a, p = .ok a ∧ q = .ok a

theorem SimM.refl {β : Type} (p : M β) : SimM p p := by
  cases p with
  | error e => cases e with
    | throw m => exact .inl ⟨⟨m, rfl⟩, ⟨m, rfl⟩⟩
    | ub m => exact .inr (.inl ⟨⟨m, rfl⟩, ⟨m, rfl⟩⟩)
  | ok a => exact .inr (.inr ⟨a, rfl, rfl⟩)

theorem SimM.of_eq {β : Type} {p q : M β} (h : p = q) : SimM p q := h ▸ SimM.refl p

theorem SimM.bind {β γ : Type} {p q : M β} {f g : β → M γ} (h : SimM p q) (hf : ∀ a, p = .ok a → SimM (f a) (g a)) : SimM (p >>= f) (q >>= g) := by
  rcases h with ⟨⟨m, h⟩, ⟨m', h'⟩⟩ | ⟨⟨m, h⟩, ⟨m', h'⟩⟩ | ⟨a, h, h'⟩
  · subst h; subst h'; exact .inl ⟨⟨m, rfl⟩, ⟨m', rfl⟩⟩
  · subst h; subst h'; exact .inr (.inl ⟨⟨m, rfl⟩, ⟨m', rfl⟩⟩)
  · subst h'; rw [h, M.bind_ok, M.bind_ok]; exact hf a h

theorem SimM.throwIf {c c' : Prop} [Decidable c] [Decidable c'] {m m' : String} (h : c ↔ c') : SimM (throwIf c m) (throwIf c' m') := by
  by_cases hc : c
  · rw [throwIf_pos hc, throwIf_pos (h.1 hc)]; exact .inl ⟨⟨m, rfl⟩, ⟨m', rfl⟩⟩
  · rw [throwIf_neg hc, throwIf_neg (fun h' => hc (h.2 h'))]; exact SimM.refl _

/-- The second call has a check more, which cannot fire. -/
theorem SimM.skip {γ : Type} {p : M γ} {c : Prop} [Decidable c] {m : String} {f : Unit → M γ} (hc : ¬ c) (h : SimM p (f ())) :
    SimM p (NNTile.throwIf c m >>= f) := by
  rw [throwIf_neg hc, M.bind_ok]; exact h

theorem SimM.check {γ : Type} {c c' : Prop} [Decidable c] [Decidable c'] {m m' : String} {f g : Unit → M γ} (h : c ↔ c')
    (hf : ¬ c → SimM (f ()) (g ())) : SimM (NNTile.throwIf c m >>= f) (NNTile.throwIf c' m' >>= g) := by
  by_cases hc : c
  · rw [throwIf_pos hc, throwIf_pos (h.1 hc)]; exact .inl ⟨⟨m, rfl⟩, ⟨m', rfl⟩⟩
  · rw [throwIf_neg hc, throwIf_neg (fun h' => hc (h.2 h')), M.bind_ok, M.bind_ok]; exact hf hc

theorem SimM.seq {γ : Type} {p q : M Unit} {f g : Unit → M γ} (h : SimM p q) (hf : SimM (f ()) (g ())) : SimM (p >>= f) (q >>= g) :=
  h.bind (fun _ _ => hf)

theorem SimM.forN {σ : Type} {n : Nat} {f g : Nat → σ → M σ} (h : ∀ i, i < n → ∀ s, SimM (f i s) (g i s)) (s : σ) :
    SimM (forN n f s) (forN n g s) := by
  induction n with
  | zero => exact SimM.refl _
  | succ n ih =>
    rw [forN_succ, forN_succ]
    exact (ih (fun i hi => h i (by omega))).bind (fun a _ => h n (by omega) a)

theorem SimM.forCheck {n : Nat} {f g : Nat → M Unit} (h : ∀ i, i < n → SimM (f i) (g i)) : SimM (forCheck n f) (forCheck n g) :=
  SimM.forN (fun i hi _ => h i hi) ()

theorem SimM.same {p q : M (List (Task1 α))} (h : SimM p q) : SameOutcome p q := by
  rcases h with h | h | ⟨a, h, h'⟩
  · exact .inl h
  · exact .inr (.inl h)
  · exact .inr (.inr ⟨a, a, h, h', fun _ => rfl⟩)

theorem SimM.sameT {p q : M (List (Task α))} (h : SimM p q) : SameOutcomeT p q := by
  rcases h with h | h | ⟨a, h, h'⟩
  · exact .inl h
  · exact .inr (.inl h)
  · exact .inr (.inr ⟨a, a, h, h', fun _ => rfl⟩)

/-! ### Tensors of one tile -/

theorem gridOf_self (S : List Nat) : gridOf S S = List.replicate S.length 1 := by
  induction S with
  | nil => simp
  | cons n S ih =>
    rw [gridOf_cons, ih, List.length_cons, List.replicate_succ]
    rcases Nat.eq_zero_or_pos n with rfl | h
    · rfl
    · rw [Nat.div_eq_of_lt (by omega)]

namespace Tile
variable {T : Tile}

theorem one_wf (h : T.WF) : T.one.WF := ⟨h, h, rfl⟩
@[simp] theorem one_shape : T.one.shape = T.shape := rfl
@[simp] theorem one_basetile : T.one.basetile = T.shape := rfl
@[simp] theorem one_ndim : T.one.ndim = T.ndim := rfl
@[simp] theorem one_grid : T.one.grid = List.replicate T.ndim 1 := gridOf_self _
@[simp] theorem one_ntiles : T.one.ntiles = 1 := by simp [Tensor.ntiles]
@[simp] theorem one_handleL : T.one.handleL 0 = .ok T.handle := by
  rw [Tensor.handleL, one_ntiles, if_pos (by omega)]; rfl
@[simp] theorem one_tindex : T.one.tindex 0 = List.replicate T.ndim 0 := by
  rw [Tensor.tindex, unlin_zero, one_grid, List.length_replicate]
theorem one_tshapeL (h : T.WF) : T.one.tshapeL 0 = T.shape := ((one_wf h).single one_ntiles).1
theorem one_tnelems (h : T.WF) : T.one.tnelems 0 = T.nelems := by rw [Tensor.tnelems, one_tshapeL h]; rfl
theorem one_inBox : InBox T.one.grid (List.replicate T.ndim 0) := by
  rw [one_grid]
  induction T.ndim with
  | zero => simp
  | succ n ih => rw [List.replicate_succ, List.replicate_succ, InBox_cons]; exact ⟨by omega, ih⟩
theorem one_lin : lin T.one.grid (List.replicate T.ndim 0) = 0 := by
  rw [← one_tindex, Tensor.lin_tindex (by simp)]
theorem one_handleAt : T.one.handleAt (List.replicate T.ndim 0) = .ok T.handle := by
  rw [Tensor.handleAt, if_pos one_inBox, one_lin]; rfl
theorem one_tshapeAt (h : T.WF) : T.one.tshapeAt (List.replicate T.ndim 0) = .ok T.shape := by
  rw [Tensor.tshapeAt, if_pos one_inBox, ← one_tindex]
  exact congrArg _ (one_tshapeL h)
theorem one_vgrid {a : Nat} (h : a < T.ndim) : vget T.one.grid a = .ok 1 := by
  simp [vget, h]
end Tile

theorem forTasks_one {τ : Type} (f : Nat → M (List τ)) : forTasks 1 f = f 0 := by
  simp only [forTasks, M.bind_ok, List.nil_append]
  cases f 0 <;> rfl

theorem replicate_insertIdx_zero {n a : Nat} (h : a ≤ n) : (List.replicate n 0).insertIdx a 0 = List.replicate (n + 1) 0 := by
  induction a generalizing n with
  | zero => rw [List.insertIdx_zero, List.replicate_succ]
  | succ a ih =>
    cases n with
    | zero => omega
    | succ n => rw [List.replicate_succ, List.insertIdx_succ_cons, ih (by omega), List.replicate_succ (n := n + 1)]

theorem mseTileIndex_zero {n a : Nat} (h : a < n) : mseTileIndex (List.replicate n 0) a 0 = List.replicate n 0 := by
  obtain ⟨m, rfl⟩ : ∃ m, n = m + 1 := ⟨n - 1, by omega⟩
  rw [mseTileIndex, List.replicate_succ, List.tail_cons, replicate_insertIdx_zero (by omega), List.replicate_succ]

theorem vget_replicate {n a c : Nat} (h : a < n) : vget (List.replicate n c) a = .ok c := by
  simp [vget, h]

theorem vget_some_of_ok {l : List Nat} {i v : Nat} (h : vget l i = .ok v) : l[i]? = some v := by
  unfold vget at h
  cases hl : l[i]? with
  | none => rw [hl] at h; cases h
  | some x => rw [hl] at h; exact congrArg some (Except.ok.inj h)

/-! ### Checks -/

theorem sim_checkPair (A B : Tile) (i j : Nat) : SimM (tileCheckPair A B i j) (checkPair A.one B.one i j) := by
  unfold tileCheckPair checkPair
  simp only [Tile.one_shape, Tile.one_basetile]
  refine (SimM.refl _).bind (fun a ha => (SimM.refl _).bind (fun b hb => ?_))
  rw [ha, hb, M.bind_ok, M.bind_ok]
  by_cases h : a = b
  · rw [throwIf_neg (by simpa using h), throwIf_neg (by simpa using h), M.bind_ok]
    exact SimM.refl _
  · rw [throwIf_pos h, throwIf_pos h, M.bind_error]; exact .inl ⟨⟨_, rfl⟩, ⟨_, rfl⟩⟩

theorem sim_checkDims (S S' : List Nat) : SimM (tileCheckDims S S') (checkDims S S' S S') := by
  induction S generalizing S' with
  | nil => unfold tileCheckDims checkDims; exact SimM.refl _
  | cons n S ih =>
    cases S' with
    | nil => unfold tileCheckDims checkDims; exact SimM.refl _
    | cons n' S' =>
      unfold tileCheckDims checkDims
      exact SimM.check Iff.rfl (fun h => SimM.skip h (ih S'))

theorem sim_checkSame (A B : Tile) : SimM (tileCheckSame A B) (checkSame A.one B.one) := by
  unfold tileCheckSame checkSame
  exact SimM.check Iff.rfl (fun _ => sim_checkDims _ _)

theorem sim_checkSame' (A B : Tile) : SimM (tileCheckShape A B) (checkSame' A.one B.one) := by
  unfold tileCheckShape checkSame'
  by_cases h : A.shape = B.shape
  · rw [throwIf_neg (by simpa using h), throwIf_neg (by simpa using h), M.bind_ok, throwIf_neg (by simpa using h)]; exact SimM.refl _
  · rw [throwIf_pos h, throwIf_pos (by simpa using h)]; exact .inl ⟨⟨_, rfl⟩, ⟨_, rfl⟩⟩

theorem sim_checkErase (A B : Tile) (a : Nat) : SimM (tileCheckErase A B a) (checkErase A.one B.one a) :=
  (SimM.forCheck (fun _ _ => sim_checkPair ..)).seq (SimM.forCheck (fun _ _ => sim_checkPair ..))

theorem sim_checkMse (A B : Tile) (a : Nat) : SimM (tileCheckMse A B a) (checkMse A.one B.one a) :=
  (SimM.forCheck (fun _ _ => sim_checkPair ..)).seq (SimM.forCheck (fun _ _ => sim_checkPair ..))

theorem sim_checkFiber (A B : Tile) (a b : Nat) : SimM (tileCheckFiber A B a b) (checkFiber A.one B.one a b) :=
  (sim_checkPair ..).seq (SimM.forCheck (fun _ _ => sim_checkPair ..))

/-- `shape[0]` is compared with a number, in the tensor function also `basetile_shape[0]`. -/
theorem sim_head {γ : Type} (l : List Nat) {v : Nat} {m m' m'' : String} {f g : M γ} (h : SimM f g) :
    SimM (vget l 0 >>= fun d => throwIf (d ≠ v) m >>= fun _ => f)
      (vget l 0 >>= fun d => throwIf (d ≠ v) m' >>= fun _ => vget l 0 >>= fun b => throwIf (b ≠ v) m'' >>= fun _ => g) := by
  refine (SimM.refl _).bind (fun d hd => SimM.check Iff.rfl (fun hv => ?_))
  rw [hd, M.bind_ok]
  exact SimM.skip hv h

/-! ### Loops -/

theorem loop0_one {A : Tile} (h : A.WF) (f : Nat → Handle → Task1 α) : loop0 A.one f = .ok [f A.nelems A.handle] := by
  rw [loop0, Tile.one_ntiles, forTasks_one, Tile.one_handleL, M.bind_ok, Tile.one_tnelems h]

theorem loop1_one {A : Tile} (h : A.WF) (B : Tile) (f : Nat → Handle → Handle → Task1 α) :
    loop1 A.one B.one f = .ok [f A.nelems A.handle B.handle] := by
  rw [loop1, Tile.one_ntiles, forTasks_one, Tile.one_handleL, Tile.one_handleL, M.bind_ok, M.bind_ok, Tile.one_tnelems h]

theorem loop2_one {A : Tile} (h : A.WF) (B C : Tile) (f : Nat → Handle → Handle → Handle → Task1 α) :
    loop2 A.one B.one C.one f = .ok [f A.nelems A.handle B.handle C.handle] := by
  rw [loop2, Tile.one_ntiles, forTasks_one, Tile.one_handleL, Tile.one_handleL, Tile.one_handleL, M.bind_ok, M.bind_ok, M.bind_ok, Tile.one_tnelems h]

theorem sliceLoop_one {A B : Tile} (hB : B.WF) {a : Nat} (hn : B.ndim = A.ndim + 1) (ha : a < B.ndim)
    (f : List Nat → Handle → Handle → Nat → M (Task1 α)) :
    sliceLoop A.one B.one a f = (f B.shape A.handle B.handle 0 >>= fun t => .ok [t]) := by
  rw [sliceLoop, Tile.one_ntiles, forTasks_one, Tile.one_handleL, M.bind_ok, Tile.one_vgrid ha, M.bind_ok, forTasks_one, Tile.one_tindex,
    replicate_insertIdx_zero (by omega), ← hn]
  dsimp only
  rw [Tile.one_handleAt, M.bind_ok, Tile.one_tshapeAt hB, M.bind_ok, Tile.one_lin]

theorem sliceReduceLoop_one [FP α] {A B : Tile} (hA : A.WF) {a : Nat} (hn : A.ndim = B.ndim + 1) (ha : a < A.ndim) (beta : α)
    (f : α → List Nat → Handle → Nat → Handle → M (Task1 α)) :
    sliceReduceLoop A.one B.one a beta f = (f beta A.shape A.handle 0 B.handle >>= fun t => .ok [t]) := by
  rw [sliceReduceLoop, Tile.one_ntiles, forTasks_one, Tile.one_handleL, M.bind_ok, Tile.one_vgrid ha, M.bind_ok, forTasks_one, Tile.one_tindex,
    replicate_insertIdx_zero (by omega), ← hn]
  dsimp only
  rw [Tile.one_handleAt, M.bind_ok, Tile.one_tshapeAt hA, M.bind_ok, Tile.one_lin, if_pos rfl]

end NNTile
