import Verif.Lib.OptimState
import Verif.Lib.Store
import Verif.Lib.Elementwise
import Verif.Spec.RealFP
import Mathlib.Tactic.NormNum
/-!
# C57: every optimizer state can be saved and restored (false)

The property fails for `Adam` with `amsgrad` and several parameters, for `FusedAdam` with the default type, for other names of types, and for 0-dimensional parameters.
-/
namespace NNTile
section
variable {α : Type} [FP α]

private theorem last_len {o : Adam α} (hl : o.maxSecondMoments.length = o.firstMoments.length) (hpos : o.firstMoments ≠ []) :
    ∃ T, o.maxSecondMoments[o.firstMoments.length - 1]? = some T := by
  refine ⟨_, List.getElem?_eq_getElem ?_⟩
  have := List.length_pos_iff.2 hpos
  omega

/-- What is stored: the last of the largest second moments, once for each parameter. -/
private theorem saveMax_spec {o : Adam α} {tmpId : Nat} {s : Store α} {z : List Nat → α} {T : Tensor} (hpos : o.firstMoments ≠ [])
    (hT : o.maxSecondMoments[o.firstMoments.length - 1]? = some T) (hr : T.Ready s) (hz : T.Holds s z) (h0 : T.shape ≠ []) (hid : tmpId ≠ T.id) :
    ∃ ws s', o.saveMax tmpId s = .ok (ws, s') ∧ ws.length = o.maxSecondMoments.length ∧ (∀ i < ws.length, ∃ a, ws[i]? = some a ∧ a.Saves T.shape z) ∧ OnlyChanged [tmpId] s s' := by
  have hn : T.id ∉ [tmpId] := by simpa using hid.symm
  have hpos' := List.length_pos_iff.2 hpos
  have key := forN_inv (n := o.maxSecondMoments.length) (s := (([], s) : List (NpArray α) × Store α)) (f := fun _ st => do
      throwIf (o.firstMoments.length = 0) "NameError"
      let w ← pyTensor o.maxSecondMoments (o.firstMoments.length - 1)
      let a ← saveArray tmpId w st.2
      .ok (st.1 ++ [a.1], a.2))
    (fun i st => st.1.length = i ∧ (∀ j < i, ∃ a, st.1[j]? = some a ∧ a.Saves T.shape z) ∧ OnlyChanged [tmpId] s st.2)
    ⟨rfl, fun j hj => absurd hj (by omega), fun _ _ => rfl⟩ (by
    rintro i hi st ⟨h1, h2, h3⟩
    obtain ⟨a, s1, ea, sa, ca⟩ := saveArray_spec (h3.ready hr hn) (h3.holds hz hn) hid h0
    refine ⟨(st.1 ++ [a], s1), ?_, by simp [h1], ?_, (h3.trans ca).mono (by simp)⟩
    · rw [throwIf_neg (by omega), M.bind_ok, pyTensor_some hT, M.bind_ok, ea, M.bind_ok]
    · intro j hj
      by_cases hji : j = i
      · subst hji
        exact ⟨a, by rw [List.getElem?_append_right (by omega), h1]; simp, sa⟩
      · obtain ⟨a', e', h'⟩ := h2 j (by omega)
        exact ⟨a', by rw [List.getElem?_append_left (by omega)]; exact e', h'⟩)
  obtain ⟨st, e, h1, h2, h3⟩ := key
  exact ⟨st.1, st.2, e, h1, by rw [h1]; exact h2, h3⟩

/-- Loading of the third list. -/
private theorem loadMax_spec {o : Adam α} {tmpId : Nat} {t : Store α} {z : List Nat → α} {ws : List (NpArray α)} {sh : List Nat} (hlen : ws.length = o.maxSecondMoments.length)
    (hsh : ∀ T ∈ o.maxSecondMoments, T.shape = sh) (h0 : sh ≠ []) (hws : ∀ i < ws.length, ∃ a, ws[i]? = some a ∧ a.Saves sh z)
    (hr : TensorsReady o.maxSecondMoments t) (hnd : (o.maxSecondMoments.map Tensor.id).Nodup) (hid : ∀ T ∈ o.maxSecondMoments, tmpId ≠ T.id) :
    ∃ t', forN ws.length (fun i s => do
      let w ← pyTensor o.maxSecondMoments i
      let a ← pyItem ws i
      fromArray w tmpId a s) t = .ok t' ∧ TensorsHold o.maxSecondMoments (fun _ => z) t' ∧ OnlyChanged (tmpId :: o.maxSecondMoments.map Tensor.id) t t' := by
  have inj : ∀ (i j : Nat) (T U : Tensor), o.maxSecondMoments[i]? = some T → o.maxSecondMoments[j]? = some U → T.id = U.id → i = j := by
    intro i j T U hT hU e
    have h1 : (o.maxSecondMoments.map Tensor.id)[i]? = some T.id := by simp [hT]
    have h2 : (o.maxSecondMoments.map Tensor.id)[j]? = some T.id := by simp [hU, e]
    exact (List.getElem?_inj (List.getElem?_eq_some_iff.1 h1).1 hnd).1 (h1.trans h2.symm)
  have key := forN_inv (n := ws.length) (s := t) (f := fun i s => do
      let w ← pyTensor o.maxSecondMoments i
      let a ← pyItem ws i
      fromArray w tmpId a s)
    (fun i s' => (∀ j T, j < i → o.maxSecondMoments[j]? = some T → T.Holds s' z) ∧ TensorsReady o.maxSecondMoments s' ∧
      OnlyChanged (tmpId :: o.maxSecondMoments.map Tensor.id) t s')
    ⟨fun j T hj => absurd hj (by omega), hr, fun _ _ => rfl⟩ (by
    rintro i hi s0 ⟨h1, h2, h3⟩
    obtain ⟨T, hT⟩ : ∃ T, o.maxSecondMoments[i]? = some T := ⟨_, List.getElem?_eq_getElem (by omega)⟩
    obtain ⟨a, ea, sa⟩ := hws i hi
    have hTm := List.mem_of_getElem? hT
    rw [← hsh T hTm] at sa
    obtain ⟨s1, e1, q1, q2, q3⟩ := loadArray_spec (h2 T hTm) (hid T hTm) (by rw [hsh T hTm]; exact h0) sa
    refine ⟨s1, ?_, ?_, ?_, (h3.trans q3).mono ?_⟩
    · rw [pyTensor_some hT, M.bind_ok, pyItem_some ea, M.bind_ok, e1]
    · intro j U hj hU
      by_cases hji : j = i
      · subst hji
        rw [hT] at hU
        cases hU
        exact q1
      · exact q3.holds (h1 j U (by omega) hU) (by simpa using ⟨fun e => hji (inj j i U T hU hT e), (hid U (List.mem_of_getElem? hU)).symm⟩)
    · intro U hU
      by_cases hUT : U.id = T.id
      · obtain ⟨j, hj⟩ := List.mem_iff_getElem?.1 hU
        have := inj j i U T hj hT hUT
        subst this
        rw [hT] at hj
        rw [← Option.some.inj hj]
        exact q2
      · exact q3.ready (h2 U hU) (by simpa using ⟨hUT, (hid U hU).symm⟩)
    · intro k hk
      simp only [List.mem_append, List.mem_cons, List.not_mem_nil, or_false] at hk
      rcases hk with hk | rfl | rfl
      · simpa using hk
      · exact List.mem_cons_of_mem _ (List.mem_map_of_mem hTm)
      · simp)
  obtain ⟨t', e, h1, h2, h3⟩ := key
  exact ⟨t', e, fun i T hT => h1 i T (by rw [hlen]; exact (List.getElem?_eq_some_iff.1 hT).1) hT, h3⟩

/-- **`amsgrad`, what happens instead**: `load_state` gives the largest second moments of the *last* parameter to all parameters. -/
theorem C57_amsgrad_last {o o' : Adam α} {n tmpId tmpId' : Nat} {s t : Store α} {x y z : Nat → List Nat → α} {sh : List Nat} (h : MomentTensors o.firstMoments o.secondMoments s)
    (hpos : o.firstMoments ≠ []) (hl : o.maxSecondMoments.length = o.firstMoments.length)
    (hx : TensorsHold o.firstMoments x s) (hy : TensorsHold o.secondMoments y s) (hz : TensorsHold o.maxSecondMoments z s) (hr : TensorsReady o.maxSecondMoments s)
    (hid : tmpId ∉ (o.firstMoments ++ o.secondMoments ++ o.maxSecondMoments).map Tensor.id)
    (h' : MomentTensors o'.firstMoments o'.secondMoments t) (hs : SameShapes o.firstMoments o.secondMoments o'.firstMoments o'.secondMoments)
    (hl' : o'.maxSecondMoments.length = o.maxSecondMoments.length) (hsh : ∀ T ∈ o.maxSecondMoments ++ o'.maxSecondMoments, T.shape = sh) (h0 : sh ≠ [])
    (hr' : TensorsReady o'.maxSecondMoments t) (hnd : ((o'.firstMoments ++ o'.secondMoments ++ o'.maxSecondMoments).map Tensor.id).Nodup)
    (hid' : tmpId' ∉ (o'.firstMoments ++ o'.secondMoments ++ o'.maxSecondMoments).map Tensor.id) :
    ∃ f s1 t', o.saveState n tmpId s = .ok (f, s1) ∧ o'.loadState f tmpId' t = .ok ((o'.withHyper o, n), t') ∧ TensorsHold o'.firstMoments x t' ∧
      TensorsHold o'.secondMoments y t' ∧ TensorsHold o'.maxSecondMoments (fun _ => z (o.firstMoments.length - 1)) t' := by
  obtain ⟨T, hT⟩ := last_len hl hpos
  have hTm := List.mem_of_getElem? hT
  have hmem : ∀ (A B C : List Tensor) (k : Nat), k ∉ (A ++ B ++ C).map Tensor.id → k ∉ (A ++ B).map Tensor.id ∧ ∀ T ∈ C, k ≠ T.id := by
    intro A B C k hk
    rw [List.map_append, List.mem_append, not_or] at hk
    exact ⟨hk.1, fun T hT e => hk.2 (e ▸ List.mem_map_of_mem hT)⟩
  obtain ⟨hi1, hi2⟩ := hmem _ _ _ _ hid
  obtain ⟨hi1', hi2'⟩ := hmem _ _ _ _ hid'
  obtain ⟨fs, ss, s1, e1, l1, l2, h1, h2, h3⟩ := saveMoments_spec (fun a => [a]) h hx hy hi1
  rw [List.flatMap_singleton', List.flatMap_singleton'] at e1
  have hTi : T.id ∉ [tmpId] := by simpa using (hi2 T hTm).symm
  have hTs : T.shape = sh := hsh T (List.mem_append_left _ hTm)
  obtain ⟨ws, s2, e2, l3, h4, -⟩ := saveMax_spec (z := z (o.firstMoments.length - 1)) hpos hT (h3.ready (hr T hTm) hTi) (h3.holds (hz _ T hT) hTi) (by rw [hTs]; exact h0) (hi2 T hTm)
  rw [hTs] at h4
  have same_at : ∀ {A B : List Tensor} (_ : A.map Tensor.shape = B.map Tensor.shape) {i : Nat} {T : Tensor} (_ : A[i]? = some T), ∃ U, B[i]? = some U ∧ U.shape = T.shape := by
    intro A B h i T hT
    have h1 : (A.map Tensor.shape)[i]? = some T.shape := by simp [hT]
    rw [h, List.getElem?_map, Option.map_eq_some_iff] at h1
    exact h1
  obtain ⟨t1, e3, q1, q2, q3, q4⟩ := loadMoments_spec (conv := Except.ok) (x := x) (y := y) (fs := fs) (ss := ss) h' hi1'
    (by have := congrArg List.length hs.1; simp only [List.length_map] at this; omega) (by
      intro i T hT
      obtain ⟨U, hU, es⟩ := same_at hs.1 hT
      obtain ⟨a, ea, sa⟩ := h1 i U hU
      exact ⟨a, a, ea, rfl, es ▸ sa⟩) (by
      intro i T hT
      obtain ⟨U, hU, es⟩ := same_at hs.2 hT
      obtain ⟨a, ea, sa⟩ := h2 i U hU
      exact ⟨a, a, ea, rfl, es ▸ sa⟩)
  rw [List.map_append, List.nodup_append] at hnd
  obtain ⟨nd1, nd2, nd3⟩ := hnd
  have hdis : ∀ T ∈ o'.maxSecondMoments, T.id ∉ tmpId' :: (o'.firstMoments ++ o'.secondMoments).map Tensor.id := by
    intro T hT hm
    rcases List.mem_cons.1 hm with e | hm
    · exact hi2' T hT e.symm
    · exact nd3 _ hm _ (List.mem_map_of_mem hT) rfl
  obtain ⟨t2, e4, q5, q6⟩ := loadMax_spec (o := o') (ws := ws) (t := t1) (tmpId := tmpId') (by omega) (fun T hT => hsh T (List.mem_append_right _ hT)) h0 h4
    (fun T hT => q4.ready (hr' T hT) (hdis T hT)) nd2 hi2'
  have hkeep : ∀ T ∈ o'.firstMoments ++ o'.secondMoments, T.id ∉ tmpId' :: o'.maxSecondMoments.map Tensor.id := by
    intro T hT hm
    rcases List.mem_cons.1 hm with e | hm
    · exact hi1' (e ▸ List.mem_map_of_mem hT)
    · exact nd3 _ (List.mem_map_of_mem hT) _ hm rfl
  refine ⟨⟨fs, ss, ws, n, o.beta1, o.beta2, o.lr, o.eps, o.weightDecay⟩, s2, t2, ?_, ?_, ?_, ?_, q5⟩
  · unfold Adam.saveState
    rw [e1, M.bind_ok, e2, M.bind_ok]
  · unfold Adam.loadState
    dsimp only
    rw [e3, M.bind_ok, e4, M.bind_ok]
    rfl
  · exact fun i T hT => q6.holds (q1 i T hT) (hkeep T (List.mem_append_left _ (List.mem_of_getElem? hT)))
  · exact fun i T hT => q6.holds (q2 i T hT) (hkeep T (List.mem_append_right _ (List.mem_of_getElem? hT)))

/-- With one parameter everything is restored. Missing: several parameters, where it is false. -/
theorem C57_amsgrad_partial {o o' : Adam α} {n tmpId tmpId' : Nat} {s t : Store α} {x y z : Nat → List Nat → α} (h : MomentTensors o.firstMoments o.secondMoments s)
    (hone : o.firstMoments.length = 1) (hl : o.maxSecondMoments.length = 1)
    (hx : TensorsHold o.firstMoments x s) (hy : TensorsHold o.secondMoments y s) (hz : TensorsHold o.maxSecondMoments z s) (hr : TensorsReady o.maxSecondMoments s)
    (hid : tmpId ∉ (o.firstMoments ++ o.secondMoments ++ o.maxSecondMoments).map Tensor.id)
    (h' : MomentTensors o'.firstMoments o'.secondMoments t) (hs : SameShapes o.firstMoments o.secondMoments o'.firstMoments o'.secondMoments)
    (hs' : o'.maxSecondMoments.map Tensor.shape = o.maxSecondMoments.map Tensor.shape) (h0 : ∀ T ∈ o.maxSecondMoments, T.shape ≠ [])
    (hr' : TensorsReady o'.maxSecondMoments t) (hnd : ((o'.firstMoments ++ o'.secondMoments ++ o'.maxSecondMoments).map Tensor.id).Nodup)
    (hid' : tmpId' ∉ (o'.firstMoments ++ o'.secondMoments ++ o'.maxSecondMoments).map Tensor.id) :
    ∃ f s1 t', o.saveState n tmpId s = .ok (f, s1) ∧ o'.loadState f tmpId' t = .ok ((o'.withHyper o, n), t') ∧ TensorsHold o'.firstMoments x t' ∧
      TensorsHold o'.secondMoments y t' ∧ TensorsHold o'.maxSecondMoments z t' := by
  have hl' : o'.maxSecondMoments.length = 1 := by
    have := congrArg List.length hs'
    simp only [List.length_map] at this
    omega
  obtain ⟨W, hW⟩ := List.length_eq_one_iff.1 hl
  obtain ⟨W', hW'⟩ := List.length_eq_one_iff.1 hl'
  rw [hW, hW'] at hs'
  have hsW : W'.shape = W.shape := by simpa using hs'
  obtain ⟨f, s1, t', e1, e2, q1, q2, q3⟩ := C57_amsgrad_last (n := n) (sh := W.shape) h (by intro e; rw [e] at hone; cases hone) (hl.trans hone.symm) hx hy hz hr hid h' hs (hl'.trans hl.symm)
    (by
      intro T hT
      rw [hW, hW'] at hT
      simp only [List.cons_append, List.nil_append, List.mem_cons, List.not_mem_nil, or_false] at hT
      rcases hT with rfl | rfl
      · rfl
      · exact hsW) (h0 W (by simp [hW])) hr' hnd hid'
  refine ⟨f, s1, t', e1, e2, q1, q2, ?_⟩
  intro i T hT
  have hi := (List.getElem?_eq_some_iff.1 hT).1
  have : i = 0 := by omega
  subst this
  have := q3 0 T hT
  rwa [hone] at this

private theorem forN_first_throws {σ : Type} {f : Nat → σ → M σ} {s : σ} (h : Throws (f 0 s)) {n : Nat} (hn : n ≠ 0) : Throws (forN n f s) := by
  induction n with
  | zero => exact absurd rfl hn
  | succ n ih =>
    rw [forN_succ]
    by_cases h0 : n = 0
    · subst h0
      rw [forN_zero, M.bind_ok]
      exact h
    · exact (ih h0).bind

/-- **`FusedAdam` with the default type of `save_state`**: the state is saved, but loading it raises an exception, for every optimizer with at least one parameter. -/
theorem C57_fused_adam_default_refuted {t : TorchTypes α} {o : Fused α} {n : Int} {tmpId : Nat} {s : Store α} {x y : Nat → List Nat → α} (hpos : o.firstMoments ≠ [])
    (h : MomentTensors o.firstMoments o.secondMoments s) (hx : TensorsHold o.firstMoments x s) (hy : TensorsHold o.secondMoments y s)
    (hid : tmpId ∉ (o.firstMoments ++ o.secondMoments).map Tensor.id) :
    ∃ f s1, o.adamSave t "fp32" n tmpId s = .ok (f, s1) ∧ ∀ (o' : Fused α) (tmpId' : Nat) (u : Store α), Throws (o'.loadState t f tmpId' u) := by
  obtain ⟨fs, ss, s1, e, l1, l2, h1, h2, h3⟩ := saveMoments_spec (Fused.adamPut t "fp32") h hx hy hid
  have hm : ∀ L : List (NpArray α), L.flatMap (Fused.adamPut t "fp32") = L.map StoredArray.numpy := by
    intro L
    have : Fused.adamPut t "fp32" = fun a => [StoredArray.numpy a] := by
      funext a
      simp [Fused.adamPut]
    rw [this]
    exact List.flatMap_pure_eq_map _ L
  rw [hm, hm] at e
  refine ⟨⟨fs.map StoredArray.numpy, ss.map StoredArray.numpy, n, o.beta1, o.beta2, o.lr, o.warmup, o.eps, o.weightDecay⟩, s1, ?_, ?_⟩
  · unfold Fused.adamSave Fused.saveState
    rw [e, M.bind_ok]
  · intro o' tmpId' u
    unfold Fused.loadState loadMoments
    refine (forN_first_throws ?_ ?_).bind
    · cases hm : o'.firstMoments with
      | nil => exact ⟨"IndexError", rfl⟩
      | cons m ms =>
        have hlt : 0 < fs.length := by rw [l1]; exact List.length_pos_iff.2 hpos
        dsimp only
        rw [pyTensor_some (T := m) rfl, M.bind_ok, pyItem_some (x := StoredArray.numpy fs[0]) (by simp [hlt]), M.bind_ok]
        exact ⟨_, rfl⟩
    · dsimp only
      rw [List.length_map, l1]
      exact (List.length_pos_iff.2 hpos).ne'

/-- **Other names of types** (for example `"float32"`): no error, but nothing of the moments is stored, and loading leaves the moments of the other optimizer as they are. -/
theorem C57_unknown_dtype_refuted {t : TorchTypes α} {dtype : String} (hd : dtype ≠ "fp32" ∧ dtype ≠ "fp16" ∧ dtype ≠ "bf16") {o : Fused α} {n : Int} {tmpId : Nat} {s : Store α}
    {x y : Nat → List Nat → α} (h : MomentTensors o.firstMoments o.secondMoments s) (hx : TensorsHold o.firstMoments x s) (hy : TensorsHold o.secondMoments y s)
    (hid : tmpId ∉ (o.firstMoments ++ o.secondMoments).map Tensor.id) :
    ∃ f s1 s2, o.adamSave t dtype n tmpId s = .ok (f, s1) ∧ o.adamwSave t dtype n tmpId s = .ok (f, s2) ∧
      ∀ (o' : Fused α) (tmpId' : Nat) (u : Store α), o'.loadState t f tmpId' u = .ok ((o'.withHyper o, n), u) := by
  have hp1 : Fused.adamPut t dtype = fun _ => [] := by
    funext a
    simp [Fused.adamPut, hd.1, hd.2.1, hd.2.2]
  have hp2 : Fused.adamwPut t dtype = fun _ => [] := by
    funext a
    simp [Fused.adamwPut, hd.1, hd.2.1, hd.2.2]
  obtain ⟨fs, ss, s1, e, -⟩ := saveMoments_spec (fun _ => ([] : List (StoredArray α))) h hx hy hid
  have hm : ∀ L : List (NpArray α), (L.flatMap fun _ => ([] : List (StoredArray α))) = [] := by
    intro L
    simp
  rw [hm, hm] at e
  refine ⟨⟨[], [], n, o.beta1, o.beta2, o.lr, o.warmup, o.eps, o.weightDecay⟩, s1, s1, ?_, ?_, fun o' tmpId' u => rfl⟩
  · unfold Fused.adamSave Fused.saveState
    rw [hp1, e, M.bind_ok]
  · unfold Fused.adamwSave Fused.saveState
    rw [hp2, e, M.bind_ok]

/-- **0-dimensional parameters**: a state with such a parameter (here the first one) cannot be saved, by any of the classes, whatever the type. -/
theorem C57_scalar_refuted {T : Tensor} {ms vs : List Tensor} (h0 : T.shape = []) {σ : Type} (put : NpArray α → List σ) {tmpId : Nat} {s : Store α} :
    Throws (saveMoments put (T :: ms) vs tmpId s) ∧
    (∀ (o : Adam α) (n : Nat), o.firstMoments = T :: ms → Throws (o.saveState n tmpId s)) ∧
    (∀ (o : Fused α) (n : Int) (t : TorchTypes α) (dtype : String), o.firstMoments = T :: ms → Throws (o.adamSave t dtype n tmpId s) ∧ Throws (o.adamwSave t dtype n tmpId s)) := by
  have key : ∀ {σ : Type} (put : NpArray α → List σ) (vs : List Tensor), Throws (saveMoments put (T :: ms) vs tmpId s) := by
    intro σ put vs
    unfold saveMoments
    refine forN_first_throws ?_ (by simp)
    dsimp only
    rw [pyTensor_some (T := T) rfl, M.bind_ok]
    refine Throws.bind (C46_rejects ?_).1
    rw [if_pos h0]
    change T.shape ≠ [1]
    rw [h0]
    simp
  refine ⟨key put vs, ?_, ?_⟩
  · intro o n ho
    unfold Adam.saveState
    rw [ho]
    exact (key _ _).bind
  · intro o n t dtype ho
    unfold Fused.adamSave Fused.adamwSave Fused.saveState
    rw [ho]
    exact ⟨(key _ _).bind, (key _ _).bind⟩

end

/-! ### A counterexample for `amsgrad` -/

private noncomputable def exO : Adam ℝ := ⟨[], [⟨0, [2], [2]⟩, ⟨1, [2], [2]⟩], [⟨2, [2], [2]⟩, ⟨3, [2], [2]⟩], [⟨4, [2], [2]⟩, ⟨5, [2], [2]⟩], true, 1, 0, 0, 0, 1⟩

/-- **`amsgrad` with two parameters**: the largest second moments of the first parameter are `7` when they are saved and `8` after loading into the same optimizer. -/
theorem C57_amsgrad_refuted : ∃ (o : Adam ℝ) (s : Store ℝ) (T : Tensor), o.maxSecondMoments[0]? = some T ∧ T.Holds s (fun _ => 7) ∧
    ∃ f s1 s2, o.saveState 2 6 s = .ok (f, s1) ∧ o.loadState f 6 s = .ok ((o, 2), s2) ∧ T.Holds s2 (fun _ => 8) ∧ ¬ T.Holds s2 (fun _ => 7) := by
  have h := storeOf_spec [((⟨0, [2], [2]⟩ : Tensor), fun _ : List Nat => (0 : ℝ)), (⟨1, [2], [2]⟩, fun _ => 0), (⟨2, [2], [2]⟩, fun _ => 0), (⟨3, [2], [2]⟩, fun _ => 0),
    (⟨4, [2], [2]⟩, fun _ => 7), (⟨5, [2], [2]⟩, fun _ => 8)] (by simp [Tensor.WF]) (by simp)
  generalize storeOf _ = s at h
  simp only [List.forall_mem_cons, List.not_mem_nil, IsEmpty.forall_iff, implies_true, and_true] at h
  obtain ⟨⟨a1, a2⟩, ⟨b1, b2⟩, ⟨c1, c2⟩, ⟨d1, d2⟩, ⟨e1, e2⟩, ⟨f1, f2⟩⟩ := h
  have hm : MomentTensors exO.firstMoments exO.secondMoments s := by
    refine ⟨rfl, by decide, ?_, by decide⟩
    simp only [TensorsReady, exO, List.cons_append, List.nil_append, List.forall_mem_cons, List.not_mem_nil, IsEmpty.forall_iff, implies_true, and_true]
    exact ⟨a1, b1, c1, d1⟩
  have hr : TensorsReady exO.maxSecondMoments s := by
    simp only [TensorsReady, exO, List.forall_mem_cons, List.not_mem_nil, IsEmpty.forall_iff, implies_true, and_true]
    exact ⟨e1, f1⟩
  have two : ∀ {A B : Tensor} {z : Nat → List Nat → ℝ}, A.Holds s (z 0) → B.Holds s (z 1) → TensorsHold [A, B] z s := by
    intro A B z hA hB i T hT
    rcases i with _ | _ | i
    · cases hT; exact hA
    · cases hT; exact hB
    · cases hT
  let z : Nat → List Nat → ℝ := fun i _ => if i = 0 then 7 else 8
  have hx : TensorsHold exO.firstMoments (fun _ _ => (0 : ℝ)) s := two a2 b2
  have hy : TensorsHold exO.secondMoments (fun _ _ => (0 : ℝ)) s := two c2 d2
  have hz : TensorsHold exO.maxSecondMoments z s := two (z := z) (by simpa [z] using e2) (by simpa [z] using f2)
  obtain ⟨f, s1, t', q1, q2, -, -, q3⟩ := C57_amsgrad_last (o := exO) (o' := exO) (n := 2) (tmpId := 6) (tmpId' := 6) (sh := [2]) hm (by simp [exO]) rfl hx hy hz hr (by decide)
    hm ⟨rfl, rfl⟩ rfl (by decide) (by decide) hr (by decide) (by decide)
  have h8 : (⟨4, [2], [2]⟩ : Tensor).Holds t' (fun _ => 8) := q3 0 ⟨4, [2], [2]⟩ rfl
  refine ⟨exO, s, ⟨4, [2], [2]⟩, rfl, e2, f, s1, t', q1, q2, h8, ?_⟩
  intro h7
  have hI : InBox [2] [0] := by simp
  have e := (h8 [0] hI).symm.trans (h7 [0] hI)
  have := Option.some.inj e
  norm_num at this

/-- The hypotheses of the other theorems can be met: two parameters, and two stores. -/
example : ∃ (o : Fused ℝ) (s : Store ℝ), o.firstMoments ≠ [] ∧ MomentTensors o.firstMoments o.secondMoments s ∧ TensorsHold o.firstMoments (fun i _ => (i : ℝ)) s ∧
    TensorsHold o.secondMoments (fun _ _ => 0) s ∧ 6 ∉ (o.firstMoments ++ o.secondMoments).map Tensor.id := by
  have h := storeOf_spec [((⟨0, [5], [2]⟩ : Tensor), fun _ : List Nat => ((0 : Nat) : ℝ)), (⟨1, [3], [2]⟩, fun _ => ((1 : Nat) : ℝ)), (⟨2, [5], [2]⟩, fun _ => 0),
    (⟨3, [3], [2]⟩, fun _ => 0)] (by simp [Tensor.WF]) (by simp)
  generalize storeOf _ = s at h
  simp only [List.forall_mem_cons, List.not_mem_nil, IsEmpty.forall_iff, implies_true, and_true] at h
  obtain ⟨⟨a1, a2⟩, ⟨b1, b2⟩, ⟨c1, c2⟩, ⟨d1, d2⟩⟩ := h
  refine ⟨⟨[], [⟨0, [5], [2]⟩, ⟨1, [3], [2]⟩], [⟨2, [5], [2]⟩, ⟨3, [3], [2]⟩], 1, none, 0, 0, 0, 1⟩, s, by simp, ⟨rfl, by decide, ?_, by decide⟩, ?_, ?_, by decide⟩
  · simp only [TensorsReady, List.cons_append, List.nil_append, List.forall_mem_cons, List.not_mem_nil, IsEmpty.forall_iff, implies_true, and_true]
    exact ⟨a1, b1, c1, d1⟩
  · intro i T hT
    rcases i with _ | _ | i
    · cases hT; exact a2
    · cases hT; exact b2
    · cases hT
  · intro i T hT
    rcases i with _ | _ | i
    · cases hT; exact c2
    · cases hT; exact d2
    · cases hT

/-- One parameter with `amsgrad`. -/
example : ∃ (o : Adam ℝ) (s : Store ℝ), MomentTensors o.firstMoments o.secondMoments s ∧ o.firstMoments.length = 1 ∧ o.maxSecondMoments.length = 1 ∧
    TensorsReady o.maxSecondMoments s ∧ TensorsHold o.maxSecondMoments (fun _ I => ((I.getD 0 0 : Nat) : ℝ)) s ∧
    ((o.firstMoments ++ o.secondMoments ++ o.maxSecondMoments).map Tensor.id).Nodup := by
  have h := storeOf_spec [((⟨0, [5], [2]⟩ : Tensor), fun _ : List Nat => (0 : ℝ)), (⟨1, [5], [2]⟩, fun _ => 0), (⟨2, [5], [2]⟩, fun I => ((I.getD 0 0 : Nat) : ℝ))]
    (by simp [Tensor.WF]) (by simp)
  generalize storeOf _ = s at h
  simp only [List.forall_mem_cons, List.not_mem_nil, IsEmpty.forall_iff, implies_true, and_true] at h
  obtain ⟨⟨a1, a2⟩, ⟨b1, b2⟩, ⟨c1, c2⟩⟩ := h
  refine ⟨⟨[], [⟨0, [5], [2]⟩], [⟨1, [5], [2]⟩], [⟨2, [5], [2]⟩], true, 1, 0, 0, 0, 1⟩, s, ⟨rfl, by decide, ?_, by decide⟩, rfl, rfl, ?_, ?_, by decide⟩
  · simp only [TensorsReady, List.cons_append, List.nil_append, List.forall_mem_cons, List.not_mem_nil, IsEmpty.forall_iff, implies_true, and_true]
    exact ⟨a1, b1⟩
  · simpa [TensorsReady] using c1
  · intro i T hT
    rcases i with _ | i
    · cases hT; exact c2
    · cases hT

end NNTile
