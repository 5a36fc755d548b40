import Verif.Spec.Numpy
import Verif.Props.C09
import Verif.Lib.Seq
import Verif.Lib.Store
import Mathlib.Data.Real.Basic
import Mathlib.Tactic.Set
/-!
# C46: exchange of data with numpy arrays
-/
namespace NNTile
variable {α : Type}

private theorem grid_self (S : List Nat) : (gridOf S S).prod = 1 := by
  induction S with
  | nil => simp
  | cons n S ih =>
    rw [gridOf_cons, List.prod_cons, ih]
    rcases Nat.eq_zero_or_pos n with rfl | h
    · rfl
    · rw [Nat.div_eq_of_lt (by omega)]

theorem forN_throwIf (c : Nat → Prop) [∀ i, Decidable (c i)] (m : String) (n : Nat) :
    ((∀ i, i < n → ¬ c i) → forN n (fun i _ => throwIf (c i) m) () = .ok ()) ∧ ((∃ i, i < n ∧ c i) → forN n (fun i _ => throwIf (c i) m) () = .error (.throw m)) := by
  induction n with
  | zero => exact ⟨fun _ => rfl, fun ⟨i, h, _⟩ => absurd h (by omega)⟩
  | succ n ih =>
    rw [forN_succ]
    constructor
    · intro h
      rw [ih.1 fun i hi => h i (by omega), M.bind_ok, throwIf_neg (h n (by omega))]
    · rintro ⟨i, hi, hc⟩
      by_cases h : ∃ i, i < n ∧ c i
      · rw [ih.2 h]; rfl
      · have hall : ∀ i, i < n → ¬ c i := fun i hi hc => h ⟨i, hi, hc⟩
        have : i = n := by
          by_contra hne
          exact hall i (by omega) hc
        subst this
        rw [ih.1 hall, M.bind_ok, throwIf_pos hc]

private theorem check_ok {T : Tensor} : npCheckShape T T.shape = .ok () := by
  unfold npCheckShape
  rw [throwIf_neg (by simp [Tensor.ndim]), M.bind_ok]
  exact (forN_throwIf _ _ _).1 fun i _ => by simp

private theorem check_throws {T : Tensor} {sh : List Nat} (h : sh ≠ T.shape) : Throws (npCheckShape T sh) := by
  unfold npCheckShape
  refine throws_step fun hl => ?_
  rw [Tensor.ndim, not_not] at hl
  refine ⟨_, (forN_throwIf _ _ _).2 ?_⟩
  by_contra hno
  refine h (List.ext_getElem hl.symm fun i h1 h2 => ?_)
  by_contra hi
  exact hno ⟨i, h2, by simpa [List.getD_eq_getElem?_getD, h1, h2] using hi⟩

private theorem scalar_ok : npCheckScalar [1] = .ok () := rfl

theorem npCheckScalar_throws {sh : List Nat} (h : sh ≠ [1]) : Throws (npCheckScalar sh) := by
  unfold npCheckScalar
  refine throws_step fun h1 => ?_
  refine ⟨_, throwIf_pos fun h2 => h ?_⟩
  rw [not_not] at h1
  obtain ⟨a, rfl⟩ := List.length_eq_one_iff.1 h1
  simpa using h2

private theorem scalar_facts {T : Tensor} (h0 : T.shape = []) : T.ntiles = 1 ∧ T.tshapeL 0 = [] ∧ T.get (α := α) = fun s I => if I = [] then (s (T.id, 0)).data 0 else T.get s I := by
  refine ⟨by simp [Tensor.ntiles, Tensor.grid, h0], by simp [Tensor.tshapeL, Tensor.tshape, h0, tileShape], ?_⟩
  funext s I
  by_cases h : I = []
  · subst h
    rw [if_pos rfl]
    simp [Tensor.get, Tensor.hOf, Tensor.oOf, Tensor.tshape, h0, Tensor.grid, tileShape, lin]
  · rw [if_neg h]

/-- The temporary tensor. -/
private theorem temporary_ok {T : Tensor} {s : Store α} (hT : T.WF) (tmpId : Nat) :
    npTemporary T tmpId s = .ok (⟨tmpId, T.shape, T.shape⟩, s.set (tmpId, 0) (Buf.undef T.shape.prod)) ∧ (⟨tmpId, T.shape, T.shape⟩ : Tensor).WF ∧
    (⟨tmpId, T.shape, T.shape⟩ : Tensor).ntiles = 1 := by
  have hw : (⟨tmpId, T.shape, T.shape⟩ : Tensor).WF := ⟨hT.1, hT.1, rfl⟩
  have hn : (⟨tmpId, T.shape, T.shape⟩ : Tensor).ntiles = 1 := grid_self _
  refine ⟨?_, hw, hn⟩
  unfold npTemporary newTensorD newTensor
  rw [throwIf_neg (by simpa using hw), M.bind_ok, M.bind_ok, throwIf_neg (by simp [hn]), M.bind_ok, M.bind_ok]

/-- **From tensor to array.** `to_array` puts each element of the tensor to the same index of the array, whatever the tiles of the tensor and the old contents of the array.
No other tensor changes. -/
theorem C46_to_array {T : Tensor} {s : Store α} {x : List Nat → α} {a : NpArray α} {tmpId : Nat} (hT : T.Ready s) (hx : T.Holds s x) (hid : tmpId ≠ T.id) (ha : a.Fits T) :
    ∃ a' s', toArray T tmpId a s = .ok (a', s') ∧ a'.Fits T ∧ a'.Holds (fun I => x (npIndex T I)) ∧ OnlyChanged [tmpId] s s' ∧ (T.shape = [] → s' = s) := by
  obtain ⟨ha1, ha2⟩ := ha
  unfold toArray
  by_cases h0 : T.shape = []
  · obtain ⟨hn, hts, hget⟩ := scalar_facts (α := α) h0
    rw [if_pos h0] at ha1
    have hsz : (s (T.id, 0)).size = 1 := by rw [hT.2 0 (by omega), hts]; rfl
    have hx0 : (s (T.id, 0)).data 0 = some (x []) := by
      have := hx [] (by rw [h0]; trivial)
      rw [hget] at this
      simpa using this
    rw [ha1] at ha2
    rw [if_pos (by simp [Tensor.ndim, h0]), ha1, scalar_ok, M.bind_ok, Tensor.handleL_ok (by omega), M.bind_ok, memcpyElems, if_pos ⟨by omega, by simp [ha2]⟩, M.bind_ok]
    refine ⟨_, _, rfl, ⟨by simp [h0], by simpa using ha2⟩, ?_, fun h _ => rfl, fun _ => rfl⟩
    intro I hI
    obtain ⟨i, rfl⟩ : ∃ i, I = [i] := List.length_eq_one_iff.1 hI.length
    have hi : i = 0 := by
      have := hI
      rw [InBox_cons] at this
      omega
    subst hi
    simpa [lin, npIndex, h0] using hx0
  · rw [if_neg h0] at ha1
    obtain ⟨e, hw, hn⟩ := temporary_ok (s := s) hT.1 tmpId
    obtain ⟨hts, hget⟩ := hw.single hn
    rw [if_neg (by simpa [Tensor.ndim] using h0), ha1, check_ok, M.bind_ok, e, M.bind_ok]
    dsimp only
    set tmp : Tensor := ⟨tmpId, T.shape, T.shape⟩ with htmp
    set s1 := s.set (tmpId, 0) (Buf.undef T.shape.prod) with hs1
    have hc1 : OnlyChanged [tmpId] s s1 := by
      intro h hh
      rw [hs1, Store.set, if_neg]
      rintro rfl
      simp at hh
    have hTr := hc1.ready hT (by simpa using fun e => hid e.symm)
    have hTx := hc1.holds hx (by simpa using fun e => hid e.symm)
    have halloc : tmp.Alloc s1 := by
      intro i hi
      have : i = 0 := by omega
      subst this
      rw [hts, hs1, Store.set, if_pos rfl]; rfl
    obtain ⟨tasks, s2, b1, b2, b3, b4, b5⟩ := gatherAsync_spec (src := T) (dst := tmp) hT.1 hw (fun e => hid e.symm) rfl hn hTr.2 halloc (fun I hI => ⟨_, hTx I hI⟩)
    have hsz : (s2 (tmpId, 0)).size = T.shape.prod := by rw [b5 0 (by omega), hts]
    rw [ha1] at ha2
    rw [b1, M.bind_ok, b2, M.bind_ok, Tensor.handleL_ok (by omega), M.bind_ok, memcpyElems, if_pos ⟨by rw [hsz], by rw [ha2]⟩, M.bind_ok]
    refine ⟨_, _, rfl, ⟨by simp [h0], by simpa using ha2⟩, ?_, fun h hh => (b4 h hh).trans (hc1 h hh), fun e => absurd e h0⟩
    intro I hI
    have hI' : InBox T.shape I := hI
    have hlt : lin T.shape I < T.shape.prod := lin_lt hI'
    change (if lin T.shape I < T.shape.prod then _ else _) = _
    have hnp : npIndex T I = I := if_neg h0
    rw [if_pos hlt]
    dsimp only
    rw [hnp, ← hTx I hI', ← b3 I hI', hget s2 I hI']

/-- **From array to tensor.** `from_array` puts each element of the array to the same index of the tensor, whatever the tiles of the tensor and its old contents. No other
tensor changes. -/
theorem C46_from_array {T : Tensor} {s : Store α} {x : List Nat → α} {a : NpArray α} {tmpId : Nat} (hT : T.Ready s) (hid : tmpId ≠ T.id) (ha : a.Fits T)
    (hx : a.Holds fun I => x (npIndex T I)) :
    ∃ s', fromArray T tmpId a s = .ok s' ∧ T.Holds s' x ∧ T.Ready s' ∧ OnlyChanged [T.id, tmpId] s s' := by
  obtain ⟨ha1, ha2⟩ := ha
  unfold fromArray
  by_cases h0 : T.shape = []
  · obtain ⟨hn, hts, hget⟩ := scalar_facts (α := α) h0
    rw [if_pos h0] at ha1
    have hsz : (s (T.id, 0)).size = 1 := by rw [hT.2 0 (by omega), hts]; rfl
    have hx0 : a.data.data 0 = some (x []) := by
      have := hx [0] (by rw [ha1]; simp)
      simpa [ha1, lin, npIndex, h0] using this
    rw [ha1] at ha2
    rw [if_pos (by simp [Tensor.ndim, h0]), ha1, scalar_ok, M.bind_ok, Tensor.handleL_ok (by omega), M.bind_ok, memcpyElems,
      if_pos ⟨by simp [ha2], by simp [hsz]⟩, M.bind_ok]
    refine ⟨_, rfl, ?_, ⟨hT.1, ?_⟩, ?_⟩
    · intro I hI
      rw [h0] at hI
      obtain rfl : I = [] := List.length_eq_zero_iff.1 hI.length
      rw [hget]
      dsimp only
      rw [if_pos rfl, Store.set, if_pos rfl]
      simpa using hx0
    · intro i hi
      have : i = 0 := by omega
      subst this
      rw [Store.set, if_pos rfl, ← hT.2 0 hi]
      simp
    · intro h hh
      rw [Store.set, if_neg]
      rintro rfl
      simp at hh
  · rw [if_neg h0] at ha1
    obtain ⟨e, hw, hn⟩ := temporary_ok (s := s) hT.1 tmpId
    obtain ⟨hts, hget⟩ := hw.single hn
    rw [if_neg (by simpa [Tensor.ndim] using h0), ha1, check_ok, M.bind_ok, e, M.bind_ok]
    dsimp only
    set tmp : Tensor := ⟨tmpId, T.shape, T.shape⟩ with htmp
    set s1 := s.set (tmpId, 0) (Buf.undef T.shape.prod) with hs1
    have hsz1 : (s1 (tmpId, 0)).size = T.shape.prod := by rw [hs1, Store.set, if_pos rfl]; rfl
    rw [ha1] at ha2
    rw [Tensor.handleL_ok (by omega), M.bind_ok, memcpyElems, if_pos ⟨by rw [ha2], hsz1.ge⟩, M.bind_ok]
    set b : Buf α := ⟨(Buf.undef (s1 (tmp.id, 0)).size : Buf α).size, fun k => if k < T.shape.prod then a.data.data k else (Buf.undef (s1 (tmp.id, 0)).size : Buf α).data k⟩ with hb
    set s2 := s1.set (tmp.id, 0) b with hs2
    have hc2 : OnlyChanged [tmpId] s s2 := by
      intro h hh
      have : h ≠ (tmpId, 0) := by
        rintro rfl
        simp at hh
      rw [hs2, Store.set, if_neg this, hs1, Store.set, if_neg this]
    have hTr := hc2.ready hT (by simpa using fun e => hid e.symm)
    have halloc : tmp.Alloc s2 := by
      intro i hi
      have : i = 0 := by omega
      subst this
      rw [hts, hs2, Store.set, if_pos rfl, hb]
      exact hsz1
    have hval : ∀ I, InBox T.shape I → tmp.get s2 I = some (x I) := by
      intro I hI
      have hlt : lin T.shape I < T.shape.prod := lin_lt hI
      rw [hget s2 I hI, hs2, Store.set, if_pos rfl, hb]
      dsimp only
      rw [if_pos hlt]
      have := hx I (ha1 ▸ hI)
      have hnp : npIndex T I = I := if_neg h0
      dsimp only at this
      rwa [ha1, hnp] at this
    obtain ⟨tasks, s3, b1, b2, b3, b4, b5⟩ := scatterAsync_spec (src := tmp) (dst := T) hw hT.1 hid rfl hn halloc hTr.2 (fun I hI => ⟨_, hval I hI⟩)
    rw [b1, M.bind_ok, b2]
    refine ⟨_, rfl, ?_, ⟨hT.1, b5⟩, ?_⟩
    · intro I hI
      rw [b3 I hI, hval I hI]
    · intro h hh
      rw [b4 h (by simp at hh ⊢; tauto), hc2 h (by simp at hh ⊢; tauto)]

/-- **Round trips.** An array put into a tensor comes back unchanged. -/
theorem C46_array_round_trip {T : Tensor} {s : Store α} {a b : NpArray α} {tmpId tmpId' : Nat} (hT : T.Ready s) (hid : tmpId ≠ T.id) (hid' : tmpId' ≠ T.id)
    (ha : a.Fits T) (hdef : ∀ k, k < a.data.size → a.data.data k ≠ none) (hb : b.Fits T) :
    ∃ s1 b' s2, fromArray T tmpId a s = .ok s1 ∧ toArray T tmpId' b s1 = .ok (b', s2) ∧ b'.shape = a.shape ∧ b'.data.size = a.data.size ∧
      ∀ k, k < a.data.size → b'.data.data k = a.data.data k := by
  classical
  have hInh : ∀ k, k < a.data.size → ∃ v, a.data.data k = some v := fun k hk => Option.ne_none_iff_exists'.1 (hdef k hk)
  have hpos : ∀ I, InBox a.shape I → lin a.shape I < a.data.size := fun I hI => by rw [ha.2]; exact lin_lt hI
  have hv0 : ∃ v : α, True := by
    refine (hInh 0 ?_).imp fun _ _ => trivial
    rw [ha.2, ha.1]
    split
    · simp
    · exact List.prod_pos hT.1.1
  obtain ⟨v0, -⟩ := hv0
  let x : List Nat → α := fun I => (a.data.data (lin a.shape (if T.shape = [] then [0] else I))).getD v0
  have hidx : ∀ I, InBox a.shape I → (if T.shape = [] then [0] else npIndex T I) = I := by
    intro I hI
    by_cases h0 : T.shape = []
    · rw [if_pos h0]
      rw [ha.1, if_pos h0] at hI
      obtain ⟨i, rfl⟩ : ∃ i, I = [i] := List.length_eq_one_iff.1 hI.length
      rw [InBox_cons] at hI
      have : i = 0 := by omega
      rw [this]
    · rw [if_neg h0, npIndex, if_neg h0]
  have hx : a.Holds fun I => x (npIndex T I) := by
    intro I hI
    obtain ⟨v, hv⟩ := hInh _ (hpos I hI)
    simp only [x, hidx I hI, hv, Option.getD_some]
  obtain ⟨s1, e1, h1, h2, -⟩ := C46_from_array hT hid ha hx
  obtain ⟨b', s2, e2, h3, h4, -⟩ := C46_to_array h2 h1 hid' hb
  have hsh : b'.shape = a.shape := by rw [h3.1, ha.1]
  refine ⟨s1, b', s2, e1, e2, hsh, by rw [h3.2, hsh, ha.2], ?_⟩
  intro k hk
  rw [ha.2] at hk
  have hIn : InBox a.shape (unlin a.shape k) := by
    refine unlin_inBox ?_ k
    rw [ha.1]
    split
    · simp
    · exact hT.1.1
  have e := h4 _ (hsh ▸ hIn)
  have e' := hx _ hIn
  rw [hsh, lin_unlin hk] at e
  rw [lin_unlin hk] at e'
  rw [e, e']

/-- A tensor put into an array and from there into another tensor, possibly cut into other tiles, arrives unchanged. -/
theorem C46_tensor_round_trip {T T' : Tensor} {s : Store α} {x : List Nat → α} {a : NpArray α} {tmpId tmpId' : Nat} (hT : T.Ready s) (hT' : T'.Ready s) (hx : T.Holds s x)
    (hsh : T'.shape = T.shape) (hid : tmpId ≠ T.id) (hid' : tmpId' ≠ T'.id) (hne : tmpId ≠ T'.id) (ha : a.Fits T) :
    ∃ a' s1 s2, toArray T tmpId a s = .ok (a', s1) ∧ fromArray T' tmpId' a' s1 = .ok s2 ∧ T'.Holds s2 x := by
  obtain ⟨a', s1, e1, h1, h2, h3, -⟩ := C46_to_array hT hx hid ha
  have hn : npIndex T' = npIndex T := by funext I; rw [npIndex, npIndex, hsh]
  obtain ⟨s2, e2, h4, -, -⟩ := C46_from_array (x := x) (h3.ready hT' (by simpa using hne.symm)) hid' (a := a') ⟨by rw [h1.1, hsh], h1.2⟩ (by rw [hn]; exact h2)
  exact ⟨a', s1, s2, e1, e2, h4⟩

/-- Arrays of another shape are rejected by both functions. -/
theorem C46_rejects {T : Tensor} {s : Store α} {a : NpArray α} {tmpId : Nat} (h : a.shape ≠ if T.shape = [] then [1] else T.shape) :
    Throws (toArray T tmpId a s) ∧ Throws (fromArray T tmpId a s) := by
  unfold toArray fromArray
  by_cases h0 : T.shape = []
  · rw [if_pos h0] at h
    rw [if_pos (by simp [Tensor.ndim, h0]), if_pos (by simp [Tensor.ndim, h0])]
    obtain ⟨m, e⟩ := npCheckScalar_throws h
    exact ⟨⟨m, by rw [e]; rfl⟩, ⟨m, by rw [e]; rfl⟩⟩
  · rw [if_neg h0] at h
    rw [if_neg (by simpa [Tensor.ndim] using h0), if_neg (by simpa [Tensor.ndim] using h0)]
    obtain ⟨m, e⟩ := check_throws h
    exact ⟨⟨m, by rw [e]; rfl⟩, ⟨m, by rw [e]; rfl⟩⟩

/-- The hypotheses can be met: a `5×3` tensor with tiles of `2×2`, and a scalar. -/
example : ∃ (s : Store ℝ) (a b : NpArray ℝ), (⟨0, [5, 3], [2, 2]⟩ : Tensor).Ready s ∧ (⟨0, [5, 3], [2, 2]⟩ : Tensor).Holds s (fun I => I.getD 0 0) ∧
    a.Fits ⟨0, [5, 3], [2, 2]⟩ ∧ (∀ k, k < a.data.size → a.data.data k ≠ none) ∧ (⟨1, [], []⟩ : Tensor).Ready s ∧ b.Fits ⟨1, [], []⟩ := by
  have h := storeOf_spec [((⟨0, [5, 3], [2, 2]⟩ : Tensor), fun I : List Nat => ((I.getD 0 0 : Nat) : ℝ)), (⟨1, [], []⟩, fun _ => 0)] (by simp [Tensor.WF]) (by simp)
  simp only [List.forall_mem_cons, List.not_mem_nil, IsEmpty.forall_iff, implies_true, and_true] at h
  exact ⟨_, ⟨[5, 3], ⟨15, fun k => some k⟩⟩, ⟨[1], ⟨1, fun _ => some 0⟩⟩, h.1.1, h.1.2, by simp [NpArray.Fits], by simp, h.2.1, by simp [NpArray.Fits]⟩

end NNTile
