import Verif.Spec.MixerTorch
import Verif.Lib.TorchStore
/-!
# Loading and saving of the parameters of `MlpMixer`
-/
namespace NNTile
variable {α : Type}

theorem pyIndex_zero {n : Nat} {l : List Nat} : pyIndex (n :: l) 0 = .ok n := by
  unfold pyIndex
  dsimp only
  rw [if_neg (by omega), throwIf_neg (by simp only [List.length_cons]; omega)]
  rfl

theorem pyIndex_one {m n : Nat} {l : List Nat} : pyIndex (m :: n :: l) 1 = .ok n := by
  unfold pyIndex
  dsimp only
  rw [if_neg (by omega), throwIf_neg (by simp only [List.length_cons]; omega)]
  rfl

/-- A parameter of the model and a PyTorch parameter with elements `x`: the elements which it gets, if it is compared by the first size only. -/
def MixPair (T : Tensor) (p : NdArray α) (x y : List Nat → α) : Prop :=
  ∃ S, p.Is S x ∧ S ≠ [] ∧ ((T.shape.getD 0 0 ≠ S.getD 0 0 ∧ T.shape = S.reverse ∧ ∀ I, InBox T.shape I → x I.reverse = y I) ∨
    (T.shape.getD 0 0 = S.getD 0 0 ∧ T.shape = S ∧ ∀ I, InBox T.shape I → x I = y I))

theorem mixTransposed_eq {T : Tensor} {p : NdArray α} (h1 : T.shape ≠ []) (h2 : p.shape ≠ []) : mixTransposed T p = .ok (T.shape.getD 0 0 != p.shape.getD 0 0) := by
  obtain ⟨a, l, e⟩ := List.exists_cons_of_ne_nil h1
  obtain ⟨b, k, e'⟩ := List.exists_cons_of_ne_nil h2
  rw [mixTransposed, e, e', pyIndex_zero, M.bind_ok, pyIndex_zero, M.bind_ok]
  rfl

theorem MixPair.ne {T : Tensor} {p : NdArray α} {x y : List Nat → α} (h : MixPair T p x y) : T.shape ≠ [] ∧ p.shape ≠ [] := by
  obtain ⟨S, h1, h2, ⟨-, h4, -⟩ | ⟨-, h4, -⟩⟩ := h
  · exact ⟨by rw [h4]; simpa using h2, by rw [h1.1]; exact h2⟩
  · exact ⟨by rw [h4]; simpa using h2, by rw [h1.1]; exact h2⟩

theorem fromArray_is {T : Tensor} {s : Store α} {tmpId : Nat} {a : NdArray α} {y : List Nat → α} (hT : T.Ready s) (hid : tmpId ≠ T.id) (hs : T.shape ≠ []) (ha : a.Is T.shape y) :
    ∃ s', fromArray T tmpId a.toF s = .ok s' ∧ T.Holds s' y ∧ T.Ready s' ∧ OnlyChanged [T.id, tmpId] s s' := by
  obtain ⟨f1, f2, f3⟩ := ha.toF
  exact C46_from_array (x := y) hT hid (a := a.toF) ⟨by rw [f1, if_neg hs], by rw [f1, f2]⟩ (by
    intro I hI
    simp only [npIndex, if_neg hs]
    exact f3 I hI)

theorem mixLoad_spec {T : Tensor} {p : NdArray α} {x y : List Nat → α} (h : MixPair T p x y) {s : Store α} {tmpId : Nat} (hT : T.Ready s) (hid : tmpId ≠ T.id) :
    ∃ s', mixLoad tmpId T p s = .ok s' ∧ T.Holds s' y ∧ T.Ready s' ∧ OnlyChanged [T.id, tmpId] s s' := by
  obtain ⟨n1, n2⟩ := h.ne
  obtain ⟨S, h1, h2, ⟨h3, h4, h5⟩ | ⟨h3, h4, h5⟩⟩ := h
  · have hp : p.T.Is T.shape y := by
      rw [h4]
      exact h1.T.congr (by rwa [h4] at h5)
    obtain ⟨s', e, r⟩ := fromArray_is hT hid n1 hp
    refine ⟨s', ?_, r⟩
    rw [mixLoad, mixTransposed_eq n1 n2, M.bind_ok, if_pos (by rw [h1.1]; simpa using h3), e]
  · have hp : p.Is T.shape y := by
      rw [h4]
      exact h1.congr (by rwa [h4] at h5)
    obtain ⟨s', e, r⟩ := fromArray_is hT hid n1 hp
    refine ⟨s', ?_, r⟩
    rw [mixLoad, mixTransposed_eq n1 n2, M.bind_ok, if_neg (by rw [h1.1]; simpa using h3), e]

/-- Lists of the same length, whose elements at the same places are related. -/
inductive All3 {A B C : Type} (R : A → B → C → Prop) : List A → List B → List C → Prop
  | nil : All3 R [] [] []
  | cons {a b c as bs cs} : R a b c → All3 R as bs cs → All3 R (a :: as) (b :: bs) (c :: cs)

theorem All3.append {A B C : Type} {R : A → B → C → Prop} {as as' : List A} {bs bs' : List B} {cs cs' : List C} (h : All3 R as bs cs) (h' : All3 R as' bs' cs') :
    All3 R (as ++ as') (bs ++ bs') (cs ++ cs') := by
  induction h with
  | nil => exact h'
  | cons h _ ih => exact .cons h ih

theorem All3.imp {A B C : Type} {R R' : A → B → C → Prop} {as : List A} {bs : List B} {cs : List C} (h : All3 R as bs cs) (hR : ∀ a ∈ as, ∀ b c, R a b c → R' a b c) : All3 R' as bs cs := by
  induction h with
  | nil => exact .nil
  | cons h _ ih => exact .cons (hR _ (by simp) _ _ h) (ih fun a ha => hR a (List.mem_cons_of_mem _ ha))

theorem All3.split {A B C : Type} {R : A → B → C → Prop} : ∀ {bs bs' : List B} {cs cs' : List C} {as : List A}, All3 R as (bs ++ bs') (cs ++ cs') → bs.length = cs.length →
    ∃ as1 as2, as = as1 ++ as2 ∧ All3 R as1 bs cs ∧ All3 R as2 bs' cs'
  | [], _, [], _, as, h, _ => ⟨[], as, rfl, .nil, h⟩
  | [], _, _ :: _, _, _, _, hl => by simp at hl
  | _ :: _, _, [], _, _, _, hl => by simp at hl
  | b :: bs, bs', c :: cs, cs', _, h, hl => by
    cases h with
    | cons h1 h2 =>
      obtain ⟨as1, as2, rfl, h3, h4⟩ := h2.split (by simpa using hl)
      exact ⟨_ :: as1, as2, rfl, .cons h1 h3, h4⟩

/-- The loop of `from_torch`. -/
theorem mixLoads_spec {tmpId : Nat} {ms : List Moments} {ps : List (NdArray α)} {ys : List (List Nat → α)} (h : All3 (fun m p y => ∃ x, MixPair m.value p x y) ms ps ys) :
    (ms.map fun m => m.value.id).Nodup → (∀ m ∈ ms, tmpId ≠ m.value.id) → ∀ {s : Store α}, (∀ m ∈ ms, m.value.Ready s) →
    ∃ s', mixLoads tmpId ms ps s = .ok s' ∧ List.Forall₂ (fun m y => m.value.Holds s' y) ms ys ∧ (∀ m ∈ ms, m.value.Ready s') ∧
      OnlyChanged (tmpId :: ms.map fun m => m.value.id) s s' := by
  induction h with
  | nil => exact fun _ _ s _ => ⟨s, rfl, .nil, by simp, fun _ _ => rfl⟩
  | @cons m p y ms ps ys h1 h2 ih =>
    intro hn ht s hr
    obtain ⟨x, h1⟩ := h1
    rw [List.map_cons, List.nodup_cons] at hn
    obtain ⟨s1, e1, v1, r1, o1⟩ := mixLoad_spec h1 (hr m (by simp)) (ht m (by simp))
    have hne : ∀ m' ∈ ms, m'.value.id ∉ [m.value.id, tmpId] := by
      intro m' hm'
      simp only [List.mem_cons, List.not_mem_nil, or_false, not_or]
      exact ⟨fun h => hn.1 (h ▸ List.mem_map_of_mem hm'), Ne.symm (ht m' (List.mem_cons_of_mem _ hm'))⟩
    obtain ⟨s2, e2, v2, r2, o2⟩ := ih hn.2 (fun m' h => ht m' (List.mem_cons_of_mem _ h)) (s := s1)
      (fun m' hm' => o1.ready (hr m' (List.mem_cons_of_mem _ hm')) (hne m' hm'))
    have hm : m.value.id ∉ tmpId :: ms.map fun m => m.value.id := by
      rw [List.mem_cons, not_or]
      exact ⟨Ne.symm (ht m (by simp)), hn.1⟩
    refine ⟨s2, ?_, .cons (o2.holds v1 hm) v2, ?_, (o1.trans o2).mono ?_⟩
    · rw [mixLoads, e1, M.bind_ok, e2]
    · intro m' hm'
      rcases List.mem_cons.1 hm' with rfl | hm'
      · exact o2.ready r1 hm
      · exact r2 m' hm'
    · intro i hi
      simp only [List.mem_append, List.mem_cons, List.not_mem_nil, or_false, List.map_cons] at hi ⊢
      tauto

/-- One parameter in `to_torch`: `y` are its contents. -/
theorem mixSave_spec [FP α] {T : Tensor} {p : NdArray α} {S : List Nat} {x y : List Nat → α} (hS : p.shape = S) (hS0 : S ≠ [])
    (h : (T.shape.getD 0 0 ≠ S.getD 0 0 ∧ T.shape = S.reverse ∧ ∀ I, InBox S I → x I = y I.reverse) ∨ (T.shape.getD 0 0 = S.getD 0 0 ∧ T.shape = S ∧ ∀ I, InBox S I → x I = y I))
    {s : Store α} {tmpId : Nat} (hT : T.Ready s) (hid : tmpId ≠ T.id) (hy : T.Holds s y) :
    ∃ a s', mixSave tmpId T p s = .ok (a, s') ∧ a.Is S x ∧ OnlyChanged [tmpId] s s' := by
  have n2 : p.shape ≠ [] := by rw [hS]; exact hS0
  have n1 : T.shape ≠ [] := by
    obtain ⟨-, h4, -⟩ | ⟨-, h4, -⟩ := h
    · rw [h4]; simpa using hS0
    · rw [h4]; exact hS0
  obtain ⟨r, s', e, v, o⟩ := saveArray_spec hT hy hid n1
  rw [saveArray] at e
  have v := v.toNd
  obtain ⟨h3, h4, h5⟩ | ⟨h3, h4, h5⟩ := h
  · have hr : r.toNd.T.Is S x := by
      have := v.T
      rw [h4, List.reverse_reverse] at this
      exact this.congr fun I hI => (h5 I hI).symm
    refine ⟨⟨p.shape, r.toNd.T.elem⟩, s', ?_, ⟨hS, fun I hI => hr.2 I hI⟩, o⟩
    rw [mixSave, mixTransposed_eq n1 n2, M.bind_ok, if_pos (by rw [hS]; simpa using h3), e, M.bind_ok]
    dsimp only
    rw [NdArray.copyFrom, throwIf_neg (by rw [hr.1, hS]; exact not_not_intro rfl)]
    rfl
  · have hr : r.toNd.Is S x := by
      rw [h4] at v
      exact v.congr fun I hI => (h5 I hI).symm
    refine ⟨⟨p.shape, r.toNd.elem⟩, s', ?_, ⟨hS, fun I hI => hr.2 I hI⟩, o⟩
    rw [mixSave, mixTransposed_eq n1 n2, M.bind_ok, if_neg (by rw [hS]; simpa using h3), e, M.bind_ok]
    dsimp only
    rw [NdArray.copyFrom, throwIf_neg (by rw [hr.1, hS]; exact not_not_intro rfl)]
    rfl

/-- What `mixSave_spec` needs: shape of the PyTorch parameter, elements `x` which it gets, contents `y` of the parameter of the model. -/
def MixBack (T : Tensor) (S : List Nat) (x y : List Nat → α) : Prop :=
  S ≠ [] ∧ ((T.shape.getD 0 0 ≠ S.getD 0 0 ∧ T.shape = S.reverse ∧ ∀ I, InBox S I → x I = y I.reverse) ∨ (T.shape.getD 0 0 = S.getD 0 0 ∧ T.shape = S ∧ ∀ I, InBox S I → x I = y I))

/-- The loop of `to_torch`. -/
theorem mixSaves_spec [FP α] {tmpId : Nat} {s0 : Store α} {ms : List Moments} {ps : List (NdArray α)} {xs : List (List Nat → α)}
    (h : All3 (fun m p x => ∃ y, MixBack m.value p.shape x y ∧ m.value.Holds s0 y) ms ps xs) : (∀ m ∈ ms, tmpId ≠ m.value.id) → (∀ m ∈ ms, m.value.Ready s0) →
    ∀ {s : Store α}, OnlyChanged [tmpId] s0 s →
    ∃ as s', mixSaves tmpId ms ps s = .ok (as, s') ∧ All3 (fun a p x => a.Is p.shape x) as ps xs ∧ OnlyChanged [tmpId] s0 s' := by
  induction h with
  | nil => exact fun _ _ s o => ⟨[], s, rfl, .nil, o⟩
  | @cons m p x ms ps xs h1 h2 ih =>
    intro ht hr s o
    obtain ⟨y, ⟨h0, h1⟩, hy⟩ := h1
    have hm : m.value.id ∉ [tmpId] := fun h => ht m (by simp) (List.mem_singleton.1 h).symm
    obtain ⟨a, s1, e1, v1, o1⟩ := mixSave_spec rfl h0 h1 (o.ready (hr m (by simp)) hm) (ht m (by simp)) (o.holds hy hm)
    obtain ⟨as, s2, e2, v2, o2⟩ := ih (fun m' h => ht m' (List.mem_cons_of_mem _ h)) (fun m' h => hr m' (List.mem_cons_of_mem _ h)) (s := s1) ((o.trans o1).mono (by simp))
    refine ⟨a :: as, s2, ?_, .cons v1 v2, o2⟩
    rw [mixSaves, e1, M.bind_ok]
    dsimp only
    rw [e2]
    rfl

end NNTile
