import Verif.Spec.OptimState
import Verif.Props.C46
/-!
# Saving and loading of the optimizer states
-/
namespace NNTile
variable {α : Type}

theorem pyTensor_some {l : List Tensor} {i : Nat} {T : Tensor} (h : l[i]? = some T) : pyTensor l i = .ok T := by
  unfold pyTensor
  rw [h]

theorem pyItem_some {β : Type} {l : List β} {i : Nat} {x : β} (h : l[i]? = some x) : pyItem l i = .ok x := by
  unfold pyItem
  rw [h]

/-- The array `a` is what is saved of a tensor of shape `sh` with contents `x`. -/
structure NpArray.Saves (a : NpArray α) (sh : List Nat) (x : List Nat → α) : Prop where
  shape : a.shape = sh
  size : a.data.size = sh.prod
  holds : a.Holds x

theorem NpArray.Saves.map {a : NpArray α} {sh : List Nat} {x : List Nat → α} (h : a.Saves sh x) (r : α → α) : (a.map r).Saves sh (fun I => r (x I)) := by
  refine ⟨h.shape, h.size, ?_⟩
  intro I hI
  have := h.holds I hI
  change Option.map r (a.data.data (lin a.shape I)) = _
  rw [this]
  rfl

theorem saveArray_spec [FP α] {T : Tensor} {s : Store α} {x : List Nat → α} {tmpId : Nat} (hT : T.Ready s) (hx : T.Holds s x) (hid : tmpId ≠ T.id) (h0 : T.shape ≠ []) :
    ∃ a s', saveArray tmpId T s = .ok (a, s') ∧ a.Saves T.shape x ∧ OnlyChanged [tmpId] s s' := by
  obtain ⟨a, s', e, h1, h2, h3, -⟩ := C46_to_array (a := npZeros T.shape) hT hx hid ⟨by rw [if_neg h0]; rfl, rfl⟩
  have hs : a.shape = T.shape := by rw [h1.1, if_neg h0]
  refine ⟨a, s', e, ⟨hs, by rw [h1.2, hs], ?_⟩, h3⟩
  have hn : (fun I => x (npIndex T I)) = x := by
    funext I
    rw [npIndex, if_neg h0]
  rwa [hn] at h2

theorem loadArray_spec {T : Tensor} {s : Store α} {x : List Nat → α} {a : NpArray α} {tmpId : Nat} (hT : T.Ready s) (hid : tmpId ≠ T.id) (h0 : T.shape ≠ [])
    (ha : a.Saves T.shape x) : ∃ s', fromArray T tmpId a s = .ok s' ∧ T.Holds s' x ∧ T.Ready s' ∧ OnlyChanged [T.id, tmpId] s s' := by
  refine C46_from_array hT hid ⟨by rw [if_neg h0, ha.shape], by rw [ha.size, ha.shape]⟩ ?_
  have hn : (fun I => x (npIndex T I)) = x := by
    funext I
    rw [npIndex, if_neg h0]
  rw [hn]
  exact ha.holds

/-- What is saved of a list of tensors. -/
def ListSaves (as : List (NpArray α)) (Ts : List Tensor) (x : Nat → List Nat → α) : Prop :=
  ∀ (i : Nat) (T : Tensor), Ts[i]? = some T → ∃ a, as[i]? = some a ∧ a.Saves T.shape (x i)

theorem saveMoments_spec [FP α] {σ : Type} (put : NpArray α → List σ) {first second : List Tensor} {x y : Nat → List Nat → α} {tmpId : Nat} {s : Store α}
    (h : MomentTensors first second s) (hx : TensorsHold first x s) (hy : TensorsHold second y s) (hid : tmpId ∉ (first ++ second).map Tensor.id) :
    ∃ fs ss s', saveMoments put first second tmpId s = .ok ((fs.flatMap put, ss.flatMap put), s') ∧ fs.length = first.length ∧ ss.length = first.length ∧
      ListSaves fs first x ∧ ListSaves ss second y ∧ OnlyChanged [tmpId] s s' := by
  have hne : ∀ T ∈ first ++ second, tmpId ≠ T.id := fun T hT e => hid (e ▸ List.mem_map_of_mem hT)
  have key := forN_inv (n := first.length) (s := ((([], []), s) : (List σ × List σ) × Store α)) (f := fun i st => do
      let m ← pyTensor first i
      let a ← saveArray tmpId m st.2
      let v ← pyTensor second i
      let b ← saveArray tmpId v a.2
      .ok ((st.1.1 ++ put a.1, st.1.2 ++ put b.1), b.2))
    (fun i st => ∃ fs ss, st.1 = (fs.flatMap put, ss.flatMap put) ∧ fs.length = i ∧ ss.length = i ∧
      (∀ j T, j < i → first[j]? = some T → ∃ a, fs[j]? = some a ∧ a.Saves T.shape (x j)) ∧ (∀ j T, j < i → second[j]? = some T → ∃ a, ss[j]? = some a ∧ a.Saves T.shape (y j)) ∧
      OnlyChanged [tmpId] s st.2)
    ⟨[], [], rfl, rfl, rfl, fun j T hj => absurd hj (by omega), fun j T hj => absurd hj (by omega), fun _ _ => rfl⟩ (by
    rintro i hi st ⟨fs, ss, h1, h2, h3, h4, h5, h6⟩
    obtain ⟨m, hm⟩ : ∃ m, first[i]? = some m := ⟨_, List.getElem?_eq_getElem hi⟩
    obtain ⟨v, hv⟩ : ∃ v, second[i]? = some v := ⟨_, List.getElem?_eq_getElem (by rw [h.len]; exact hi)⟩
    have hmm : m ∈ first ++ second := List.mem_append_left _ (List.mem_of_getElem? hm)
    have hvm : v ∈ first ++ second := List.mem_append_right _ (List.mem_of_getElem? hv)
    have hnm : m.id ∉ [tmpId] := by simpa using (hne m hmm).symm
    have hnv : v.id ∉ [tmpId] := by simpa using (hne v hvm).symm
    obtain ⟨a, s1, ea, sa, ca⟩ := saveArray_spec (h6.ready (h.ready m hmm) hnm) (h6.holds (hx i m hm) hnm) (hne m hmm) (h.dims m hmm)
    have c1 : OnlyChanged [tmpId] s s1 := (h6.trans ca).mono (by simp)
    obtain ⟨b, s2, eb, sb, cb⟩ := saveArray_spec (c1.ready (h.ready v hvm) hnv) (c1.holds (hy i v hv) hnv) (hne v hvm) (h.dims v hvm)
    refine ⟨((st.1.1 ++ put a, st.1.2 ++ put b), s2), ?_, fs ++ [a], ss ++ [b], ?_, by simp [h2], by simp [h3], ?_, ?_, (c1.trans cb).mono (by simp)⟩
    · rw [pyTensor_some hm, M.bind_ok, ea, M.bind_ok, pyTensor_some hv, M.bind_ok, eb, M.bind_ok]
    · dsimp only
      rw [h1]
      simp
    · intro j T hj hT
      by_cases hji : j = i
      · subst hji
        rw [hm] at hT
        cases hT
        exact ⟨a, by rw [List.getElem?_append_right (by omega), h2]; simp, sa⟩
      · obtain ⟨a', e', h'⟩ := h4 j T (by omega) hT
        exact ⟨a', by rw [List.getElem?_append_left (by omega)]; exact e', h'⟩
    · intro j T hj hT
      by_cases hji : j = i
      · subst hji
        rw [hv] at hT
        cases hT
        exact ⟨b, by rw [List.getElem?_append_right (by omega), h3]; simp, sb⟩
      · obtain ⟨a', e', h'⟩ := h5 j T (by omega) hT
        exact ⟨a', by rw [List.getElem?_append_left (by omega)]; exact e', h'⟩)
  obtain ⟨st, e, fs, ss, h1, h2, h3, h4, h5, h6⟩ := key
  refine ⟨fs, ss, st.2, ?_, h2, h3, fun i T hT => h4 i T ?_ hT, fun i T hT => h5 i T ?_ hT, h6⟩
  · rw [← h1]; exact e
  · exact (List.getElem?_eq_some_iff.1 hT).1
  · have := (List.getElem?_eq_some_iff.1 hT).1
    rw [h.len] at this
    exact this

theorem loadMoments_spec {σ : Type} {conv : σ → M (NpArray α)} {first second : List Tensor} {x y : Nat → List Nat → α} {fs ss : List σ} {tmpId : Nat} {s : Store α}
    (h : MomentTensors first second s) (hid : tmpId ∉ (first ++ second).map Tensor.id) (hf : fs.length = first.length)
    (hfs : ∀ i T, first[i]? = some T → ∃ f a, fs[i]? = some f ∧ conv f = .ok a ∧ a.Saves T.shape (x i))
    (hss : ∀ i T, second[i]? = some T → ∃ f a, ss[i]? = some f ∧ conv f = .ok a ∧ a.Saves T.shape (y i)) :
    ∃ s', loadMoments conv first second fs ss tmpId s = .ok s' ∧ TensorsHold first x s' ∧ TensorsHold second y s' ∧ TensorsReady (first ++ second) s' ∧
      OnlyChanged (tmpId :: (first ++ second).map Tensor.id) s s' := by
  have hne : ∀ T ∈ first ++ second, tmpId ≠ T.id := fun T hT e => hid (e ▸ List.mem_map_of_mem hT)
  have hnd := h.ids
  rw [List.map_append, List.nodup_append] at hnd
  obtain ⟨nd1, nd2, nd3⟩ := hnd
  have inj1 : ∀ (i j : Nat) (T U : Tensor), first[i]? = some T → first[j]? = some U → T.id = U.id → i = j := by
    intro i j T U hT hU e
    have h1 : (first.map Tensor.id)[i]? = some T.id := by simp [hT]
    have h2 : (first.map Tensor.id)[j]? = some T.id := by simp [hU, e]
    have hlt : i < (first.map Tensor.id).length := (List.getElem?_eq_some_iff.1 h1).1
    exact (List.getElem?_inj hlt nd1).1 (h1.trans h2.symm)
  have inj2 : ∀ (i j : Nat) (T U : Tensor), second[i]? = some T → second[j]? = some U → T.id = U.id → i = j := by
    intro i j T U hT hU e
    have h1 : (second.map Tensor.id)[i]? = some T.id := by simp [hT]
    have h2 : (second.map Tensor.id)[j]? = some T.id := by simp [hU, e]
    have hlt : i < (second.map Tensor.id).length := (List.getElem?_eq_some_iff.1 h1).1
    exact (List.getElem?_inj hlt nd2).1 (h1.trans h2.symm)
  have inj3 : ∀ (i j : Nat) (T U : Tensor), first[i]? = some T → second[j]? = some U → T.id ≠ U.id := fun i j T U hT hU =>
    nd3 _ (List.mem_map_of_mem (List.mem_of_getElem? hT)) _ (List.mem_map_of_mem (List.mem_of_getElem? hU))
  have key := forN_inv (n := fs.length) (s := s) (f := fun i s => do
      let m ← pyTensor first i
      let f ← pyItem fs i
      let a ← conv f
      let s1 ← fromArray m tmpId a s
      let v ← pyTensor second i
      let g ← pyItem ss i
      let b ← conv g
      fromArray v tmpId b s1)
    (fun i s' => (∀ j T, j < i → first[j]? = some T → T.Holds s' (x j)) ∧ (∀ j T, j < i → second[j]? = some T → T.Holds s' (y j)) ∧
      TensorsReady (first ++ second) s' ∧ OnlyChanged (tmpId :: (first ++ second).map Tensor.id) s s')
    ⟨fun j T hj => absurd hj (by omega), fun j T hj => absurd hj (by omega), h.ready, fun _ _ => rfl⟩ (by
    rintro i hi s0 ⟨h1, h2, h3, h4⟩
    rw [hf] at hi
    obtain ⟨m, hm⟩ : ∃ m, first[i]? = some m := ⟨_, List.getElem?_eq_getElem hi⟩
    obtain ⟨v, hv⟩ : ∃ v, second[i]? = some v := ⟨_, List.getElem?_eq_getElem (by rw [h.len]; exact hi)⟩
    have hmm : m ∈ first ++ second := List.mem_append_left _ (List.mem_of_getElem? hm)
    have hvm : v ∈ first ++ second := List.mem_append_right _ (List.mem_of_getElem? hv)
    obtain ⟨f, a, ef, ea, sa⟩ := hfs i m hm
    obtain ⟨g, b, eg, eb, sb⟩ := hss i v hv
    obtain ⟨s1, e1, q1, q2, q3⟩ := loadArray_spec (h3 m hmm) (hne m hmm) (h.dims m hmm) sa
    have rd1 : ∀ T ∈ first ++ second, T.id ≠ m.id → T.Ready s1 := fun T hT he => q3.ready (h3 T hT) (by simpa using ⟨he, (hne T hT).symm⟩)
    obtain ⟨s2, e2, r1, r2, r3⟩ := loadArray_spec (rd1 v hvm (inj3 i i m v hm hv).symm) (hne v hvm) (h.dims v hvm) sb
    refine ⟨s2, ?_, ?_, ?_, ?_, ((h4.trans q3).trans r3).mono ?_⟩
    · rw [pyTensor_some hm, M.bind_ok, pyItem_some ef, M.bind_ok, ea, M.bind_ok, e1, M.bind_ok, pyTensor_some hv, M.bind_ok, pyItem_some eg, M.bind_ok, eb, M.bind_ok, e2]
    · intro j T hj hT
      have hTm : T ∈ first ++ second := List.mem_append_left _ (List.mem_of_getElem? hT)
      refine r3.holds ?_ (by simpa using ⟨inj3 j i T v hT hv, (hne T hTm).symm⟩)
      by_cases hji : j = i
      · subst hji
        rw [hm] at hT
        cases hT
        exact q1
      · exact q3.holds (h1 j T (by omega) hT) (by simpa using ⟨fun e => hji (inj1 j i T m hT hm e), (hne T hTm).symm⟩)
    · intro j T hj hT
      have hTm : T ∈ first ++ second := List.mem_append_right _ (List.mem_of_getElem? hT)
      by_cases hji : j = i
      · subst hji
        rw [hv] at hT
        cases hT
        exact r1
      · exact r3.holds (q3.holds (h2 j T (by omega) hT) (by simpa using ⟨fun e => inj3 i j m T hm hT e.symm, (hne T hTm).symm⟩))
          (by simpa using ⟨fun e => hji (inj2 j i T v hT hv e), (hne T hTm).symm⟩)
    · intro T hT
      by_cases hTv : T.id = v.id
      · have hTeq : T = v := by
          rcases List.mem_append.1 hT with hT' | hT'
          · obtain ⟨j, hj⟩ := List.mem_iff_getElem?.1 hT'
            exact absurd hTv (inj3 j i T v hj hv)
          · obtain ⟨j, hj⟩ := List.mem_iff_getElem?.1 hT'
            have := inj2 j i T v hj hv hTv
            subst this
            rw [hv] at hj
            exact (Option.some.inj hj).symm
        rw [hTeq]
        exact r2
      · refine r3.ready ?_ (by simpa using ⟨hTv, (hne T hT).symm⟩)
        by_cases hTm : T.id = m.id
        · have hTeq : T = m := by
            rcases List.mem_append.1 hT with hT' | hT'
            · obtain ⟨j, hj⟩ := List.mem_iff_getElem?.1 hT'
              have := inj1 j i T m hj hm hTm
              subst this
              rw [hm] at hj
              exact (Option.some.inj hj).symm
            · obtain ⟨j, hj⟩ := List.mem_iff_getElem?.1 hT'
              exact absurd hTm.symm (inj3 i j m T hm hj)
          rw [hTeq]
          exact q2
        · exact rd1 T hT hTm
    · intro k hk
      simp only [List.mem_append, List.mem_cons, List.not_mem_nil, or_false] at hk
      rcases hk with (hk | hk) | hk
      · simpa using hk
      · rcases hk with rfl | rfl
        · exact List.mem_cons_of_mem _ (List.mem_map_of_mem hmm)
        · simp
      · rcases hk with rfl | rfl
        · exact List.mem_cons_of_mem _ (List.mem_map_of_mem hvm)
        · simp)
  obtain ⟨s', e, h1, h2, h3, h4⟩ := key
  refine ⟨s', e, fun i T hT => h1 i T ?_ hT, fun i T hT => h2 i T ?_ hT, h3, h4⟩
  · rw [hf]
    exact (List.getElem?_eq_some_iff.1 hT).1
  · have := (List.getElem?_eq_some_iff.1 hT).1
    rw [h.len] at this
    omega

end NNTile
