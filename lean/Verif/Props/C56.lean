import Verif.Lib.OptimState
import Verif.Props.C42
/-!
# C56: the state of an optimizer can be saved and restored
-/
namespace NNTile
section
variable {α : Type} [FP α]

private theorem same_at {A B : List Tensor} (h : A.map Tensor.shape = B.map Tensor.shape) {i : Nat} {T : Tensor} (hT : A[i]? = some T) :
    ∃ U, B[i]? = some U ∧ U.shape = T.shape := by
  have h1 : (A.map Tensor.shape)[i]? = some T.shape := by simp [hT]
  rw [h, List.getElem?_map, Option.map_eq_some_iff] at h1
  exact h1

private theorem same_len {A B : List Tensor} (h : A.map Tensor.shape = B.map Tensor.shape) : A.length = B.length := by
  have := congrArg List.length h
  simpa using this

/-- **`Adam` (without `amsgrad`).** `save_state` changes no tensor; `load_state` of any optimizer with moments of the same shapes, possibly of another program run and with other
tiles, then restores all the moments, the hyperparameters and `num_iter`, and changes no other tensor. -/
theorem C56_adam {o : Adam α} {n tmpId : Nat} {s : Store α} {x y : Nat → List Nat → α} (ham : o.maxSecondMoments = []) (h : MomentTensors o.firstMoments o.secondMoments s)
    (hx : TensorsHold o.firstMoments x s) (hy : TensorsHold o.secondMoments y s) (hid : tmpId ∉ (o.firstMoments ++ o.secondMoments).map Tensor.id) :
    ∃ f s1, o.saveState n tmpId s = .ok (f, s1) ∧ OnlyChanged [tmpId] s s1 ∧
      ∀ (o' : Adam α) (tmpId' : Nat) (t : Store α), MomentTensors o'.firstMoments o'.secondMoments t →
        SameShapes o.firstMoments o.secondMoments o'.firstMoments o'.secondMoments → tmpId' ∉ (o'.firstMoments ++ o'.secondMoments).map Tensor.id →
        ∃ t', o'.loadState f tmpId' t = .ok ((o'.withHyper o, n), t') ∧ TensorsHold o'.firstMoments x t' ∧ TensorsHold o'.secondMoments y t' ∧
          TensorsReady (o'.firstMoments ++ o'.secondMoments) t' ∧ OnlyChanged (tmpId' :: (o'.firstMoments ++ o'.secondMoments).map Tensor.id) t t' := by
  obtain ⟨fs, ss, s1, e, l1, l2, h1, h2, h3⟩ := saveMoments_spec (fun a => [a]) h hx hy hid
  rw [List.flatMap_singleton', List.flatMap_singleton'] at e
  refine ⟨⟨fs, ss, [], n, o.beta1, o.beta2, o.lr, o.eps, o.weightDecay⟩, s1, ?_, h3, ?_⟩
  · unfold Adam.saveState Adam.saveMax
    rw [e, M.bind_ok, ham]
    rfl
  · intro o' tmpId' t h' hs hid'
    obtain ⟨t', e', q1, q2, q3, q4⟩ := loadMoments_spec (conv := Except.ok) (x := x) (y := y) (fs := fs) (ss := ss) h' hid' (l1.trans (same_len hs.1).symm) (by
      intro i T hT
      obtain ⟨U, hU, es⟩ := same_at hs.1 hT
      obtain ⟨a, ea, sa⟩ := h1 i U hU
      exact ⟨a, a, ea, rfl, es ▸ sa⟩) (by
      intro i T hT
      obtain ⟨U, hU, es⟩ := same_at hs.2 hT
      obtain ⟨a, ea, sa⟩ := h2 i U hU
      exact ⟨a, a, ea, rfl, es ▸ sa⟩)
    refine ⟨t', ?_, q1, q2, q3, q4⟩
    unfold Adam.loadState
    dsimp only
    rw [e', M.bind_ok]
    rfl

/-- A file of torch tensors. -/
private theorem fused_restores {t : TorchTypes α} {put : NpArray α → List (StoredArray α)} {r : α → α} (hput : put = fun a => [.torch (a.map r)]) {o : Fused α} {n : Int}
    {tmpId : Nat} {s : Store α} {x y : Nat → List Nat → α} (h : MomentTensors o.firstMoments o.secondMoments s) (hx : TensorsHold o.firstMoments x s)
    (hy : TensorsHold o.secondMoments y s) (hid : tmpId ∉ (o.firstMoments ++ o.secondMoments).map Tensor.id) :
    ∃ f s1, o.saveState put n tmpId s = .ok (f, s1) ∧ OnlyChanged [tmpId] s s1 ∧
      ∀ (o' : Fused α) (tmpId' : Nat) (u : Store α), MomentTensors o'.firstMoments o'.secondMoments u →
        SameShapes o.firstMoments o.secondMoments o'.firstMoments o'.secondMoments → tmpId' ∉ (o'.firstMoments ++ o'.secondMoments).map Tensor.id →
        ∃ u', o'.loadState t f tmpId' u = .ok ((o'.withHyper o, n), u') ∧ TensorsHold o'.firstMoments (fun i I => t.float32 (r (x i I))) u' ∧
          TensorsHold o'.secondMoments (fun i I => t.float32 (r (y i I))) u' ∧
          TensorsReady (o'.firstMoments ++ o'.secondMoments) u' ∧ OnlyChanged (tmpId' :: (o'.firstMoments ++ o'.secondMoments).map Tensor.id) u u' := by
  obtain ⟨fs, ss, s1, e, l1, l2, h1, h2, h3⟩ := saveMoments_spec put h hx hy hid
  have hm : ∀ L : List (NpArray α), L.flatMap put = L.map (fun a => StoredArray.torch (a.map r)) := by
    intro L
    rw [hput]
    exact List.flatMap_pure_eq_map _ L
  rw [hm, hm] at e
  refine ⟨⟨fs.map (fun a => StoredArray.torch (a.map r)), ss.map (fun a => StoredArray.torch (a.map r)), n, o.beta1, o.beta2, o.lr, o.warmup, o.eps, o.weightDecay⟩,
    s1, ?_, h3, ?_⟩
  · unfold Fused.saveState
    rw [e, M.bind_ok]
  · intro o' tmpId' u h' hs hid'
    obtain ⟨u', e', q1, q2, q3, q4⟩ := loadMoments_spec (conv := StoredArray.toFloat32 t) (x := fun i I => t.float32 (r (x i I))) (y := fun i I => t.float32 (r (y i I)))
      (fs := fs.map (fun a => StoredArray.torch (a.map r))) (ss := ss.map (fun a => StoredArray.torch (a.map r))) h' hid'
      (by rw [List.length_map]; exact l1.trans (same_len hs.1).symm) (by
      intro i T hT
      obtain ⟨U, hU, es⟩ := same_at hs.1 hT
      obtain ⟨a, ea, sa⟩ := h1 i U hU
      exact ⟨.torch (a.map r), (a.map r).map t.float32, by rw [List.getElem?_map, ea]; rfl, rfl, es ▸ (sa.map r).map t.float32⟩) (by
      intro i T hT
      obtain ⟨U, hU, es⟩ := same_at hs.2 hT
      obtain ⟨a, ea, sa⟩ := h2 i U hU
      exact ⟨.torch (a.map r), (a.map r).map t.float32, by rw [List.getElem?_map, ea]; rfl, rfl, es ▸ (sa.map r).map t.float32⟩)
    refine ⟨u', ?_, q1, q2, q3, q4⟩
    unfold Fused.loadState
    dsimp only
    rw [e', M.bind_ok]
    rfl

omit [FP α] in
private theorem map_id (a : NpArray α) : a.map (fun x => x) = a := by
  have : (fun k => Option.map (fun x : α => x) (a.data.data k)) = a.data.data := by
    funext k
    exact Option.map_id'
  unfold NpArray.map
  rw [this]

/-- **`FusedAdamW`**, with each of the three types of stored numbers: the moments are restored up to the rounding to this type and to `float32`; hyperparameters, warmup and
`num_iter` exactly. -/
theorem C56_fused_adamw {t : TorchTypes α} {dtype : String} (hd : dtype = "fp32" ∨ dtype = "fp16" ∨ dtype = "bf16") {o : Fused α} {n : Int}
    {tmpId : Nat} {s : Store α} {x y : Nat → List Nat → α} (h : MomentTensors o.firstMoments o.secondMoments s) (hx : TensorsHold o.firstMoments x s)
    (hy : TensorsHold o.secondMoments y s) (hid : tmpId ∉ (o.firstMoments ++ o.secondMoments).map Tensor.id) :
    ∃ f s1, o.adamwSave t dtype n tmpId s = .ok (f, s1) ∧ OnlyChanged [tmpId] s s1 ∧
      ∀ (o' : Fused α) (tmpId' : Nat) (u : Store α), MomentTensors o'.firstMoments o'.secondMoments u →
        SameShapes o.firstMoments o.secondMoments o'.firstMoments o'.secondMoments → tmpId' ∉ (o'.firstMoments ++ o'.secondMoments).map Tensor.id →
        ∃ u', o'.loadState t f tmpId' u = .ok ((o'.withHyper o, n), u') ∧ TensorsHold o'.firstMoments (fun i I => t.float32 (t.rounding dtype (x i I))) u' ∧
          TensorsHold o'.secondMoments (fun i I => t.float32 (t.rounding dtype (y i I))) u' ∧
          TensorsReady (o'.firstMoments ++ o'.secondMoments) u' ∧ OnlyChanged (tmpId' :: (o'.firstMoments ++ o'.secondMoments).map Tensor.id) u u' := by
  refine fused_restores ?_ h hx hy hid
  funext a
  rcases hd with rfl | rfl | rfl
  · simp [Fused.adamwPut, TorchTypes.rounding, map_id]
  · simp [Fused.adamwPut, TorchTypes.rounding]
  · simp [Fused.adamwPut, TorchTypes.rounding]

/-- **`FusedAdam`**, with the types of 16 bits. -/
theorem C56_fused_adam {t : TorchTypes α} {dtype : String} (hd : dtype = "fp16" ∨ dtype = "bf16") {o : Fused α} {n : Int}
    {tmpId : Nat} {s : Store α} {x y : Nat → List Nat → α} (h : MomentTensors o.firstMoments o.secondMoments s) (hx : TensorsHold o.firstMoments x s)
    (hy : TensorsHold o.secondMoments y s) (hid : tmpId ∉ (o.firstMoments ++ o.secondMoments).map Tensor.id) :
    ∃ f s1, o.adamSave t dtype n tmpId s = .ok (f, s1) ∧ OnlyChanged [tmpId] s s1 ∧
      ∀ (o' : Fused α) (tmpId' : Nat) (u : Store α), MomentTensors o'.firstMoments o'.secondMoments u →
        SameShapes o.firstMoments o.secondMoments o'.firstMoments o'.secondMoments → tmpId' ∉ (o'.firstMoments ++ o'.secondMoments).map Tensor.id →
        ∃ u', o'.loadState t f tmpId' u = .ok ((o'.withHyper o, n), u') ∧ TensorsHold o'.firstMoments (fun i I => t.float32 (t.rounding dtype (x i I))) u' ∧
          TensorsHold o'.secondMoments (fun i I => t.float32 (t.rounding dtype (y i I))) u' ∧
          TensorsReady (o'.firstMoments ++ o'.secondMoments) u' ∧ OnlyChanged (tmpId' :: (o'.firstMoments ++ o'.secondMoments).map Tensor.id) u u' := by
  refine fused_restores ?_ h hx hy hid
  funext a
  rcases hd with rfl | rfl
  · simp [Fused.adamPut, TorchTypes.rounding]
  · simp [Fused.adamPut, TorchTypes.rounding]

end

/-! ### Resumed training -/

private theorem moments_of_fits {params : List Moments} {first second : List Tensor} (fit : OptFits params [first, second]) (hd : ∀ p ∈ params, p.value.shape ≠ [])
    {s : Store ℝ} (hr : TensorsReady (first ++ second) s) : MomentTensors first second s := by
  have l1 : first.length = params.length := fit.len _ (by simp)
  have l2 : second.length = params.length := fit.len _ (by simp)
  have hz : ∀ l : List Tensor, l ∈ [first, second] → l.length = params.length → ∀ T ∈ l, T.shape ≠ [] := by
    intro l hl hlen T hT
    obtain ⟨i, hi, rfl⟩ := List.mem_iff_getElem.1 hT
    have hi' : i < params.length := hlen ▸ hi
    have hm : (params[i], l[i]) ∈ params.zip l := by
      rw [List.mem_iff_getElem]
      exact ⟨i, by simp only [List.length_zip]; omega, by rw [List.getElem_zip]⟩
    rw [(fit.like l hl _ hm).1]
    exact hd _ (List.getElem_mem hi')
  refine ⟨by omega, ?_, hr, ?_⟩
  · have := fit.ids
    rw [List.map_append] at this
    have := (List.nodup_append.1 this).2.1
    simpa using this
  · intro T hT
    rcases List.mem_append.1 hT with hT | hT
    · exact hz first (by simp) l1 T hT
    · exact hz second (by simp) l2 T hT

private theorem ready_of_saved {params : List Moments} {first second : List Tensor} (fit : OptFits params [first, second]) {k : Nat} {a : Nat → List Nat → ℝ × ℝ} {s : Store ℝ}
    (h : MomentsSaved params first second k a s) : TensorsReady (first ++ second) s := by
  have l1 : first.length = params.length := fit.len _ (by simp)
  have l2 : second.length = params.length := fit.len _ (by simp)
  intro T hT
  rcases List.mem_append.1 hT with hT | hT
  · obtain ⟨i, hi, rfl⟩ := List.mem_iff_getElem.1 hT
    exact (h i params[i] first[i] second[i] (by simp) (by simp) (by simp)).1
  · obtain ⟨i, hi, rfl⟩ := List.mem_iff_getElem.1 hT
    exact (h i params[i] first[i] second[i] (by simp) (by simp) (by simp)).2.1

/-- The states of the elements after a restart: those of the parameter at the same place of the list. -/
private theorem saved_of_holds {params params' : List Moments} {first second first' second' : List Tensor} (fit : OptFits params [first, second])
    (fit' : OptFits params' [first', second']) (hlen : params'.length = params.length) {k : Nat} (hk : k ≠ 0) {a : Nat → List Nat → ℝ × ℝ} {s t : Store ℝ}
    (h : MomentsSaved params first second k a s) (hr : TensorsReady (first' ++ second') t)
    (hx : TensorsHold first' (fun i I => ((params[i]?.map fun p => a p.value.id I).getD 0).1) t)
    (hy : TensorsHold second' (fun i I => Real.sqrt ((params[i]?.map fun p => a p.value.id I).getD 0).2) t) :
    ∃ a', (∀ (i : Nat) (p p' : Moments), params[i]? = some p → params'[i]? = some p' → a' p'.value.id = a p.value.id) ∧ MomentsSaved params' first' second' k a' t := by
  classical
  have hinj : ∀ (i j : Nat) (p q : Moments), params'[i]? = some p → params'[j]? = some q → p.value.id = q.value.id → i = j := by
    intro i j p q hp hq e
    have nd : (params'.map fun p => p.value.id).Nodup := by
      have := fit'.ids
      rw [List.map_append] at this
      have := (List.nodup_append.1 this).1
      refine List.Nodup.sublist ?_ this
      unfold paramTensors
      clear * -
      induction params' with
      | nil => simp
      | cons p ps ih =>
        simp only [List.map_cons, List.flatMap_cons, List.map_append]
        exact (List.Sublist.cons_cons _ ((List.Sublist.cons _ ih)))
    have h1 : (params'.map fun p => p.value.id)[i]? = some p.value.id := by simp [hp]
    have h2 : (params'.map fun p => p.value.id)[j]? = some p.value.id := by simp [hq, e]
    exact (List.getElem?_inj (List.getElem?_eq_some_iff.1 h1).1 nd).1 (h1.trans h2.symm)
  let a' : Nat → List Nat → ℝ × ℝ := fun id => if h : ∃ (i : Nat) (p p' : Moments), params[i]? = some p ∧ params'[i]? = some p' ∧ p'.value.id = id then a h.choose_spec.choose.value.id else fun _ => 0
  have ha : ∀ (i : Nat) (p p' : Moments), params[i]? = some p → params'[i]? = some p' → a' p'.value.id = a p.value.id := by
    intro i p p' hp hp'
    have hex : ∃ (j : Nat) (q q' : Moments), params[j]? = some q ∧ params'[j]? = some q' ∧ q'.value.id = p'.value.id := ⟨i, p, p', hp, hp', rfl⟩
    simp only [a']
    rw [dif_pos hex]
    obtain ⟨q', c1, c2, c3⟩ := hex.choose_spec.choose_spec
    have := hinj _ _ _ _ c2 hp' c3
    have e : some p = some hex.choose_spec.choose := by rw [← c1, this, hp]
    rw [← Option.some.inj e]
  refine ⟨a', ha, ?_⟩
  intro i p' m v hp' hm hv
  obtain ⟨p, hp⟩ : ∃ p, params[i]? = some p := ⟨_, List.getElem?_eq_getElem (by have := (List.getElem?_eq_some_iff.1 hp').1; omega)⟩
  have l1 : first.length = params.length := fit.len _ (by simp)
  have l2 : second.length = params.length := fit.len _ (by simp)
  have hi := (List.getElem?_eq_some_iff.1 hp).1
  obtain ⟨m0, hm0⟩ : ∃ m, first[i]? = some m := ⟨_, List.getElem?_eq_getElem (by omega)⟩
  obtain ⟨v0, hv0⟩ : ∃ m, second[i]? = some m := ⟨_, List.getElem?_eq_getElem (by omega)⟩
  rw [ha i p p' hp hp']
  obtain ⟨-, -, hn, -, -⟩ := h i p m0 v0 hp hm0 hv0
  refine ⟨hr m (List.mem_append_left _ (List.mem_of_getElem? hm)), hr v (List.mem_append_right _ (List.mem_of_getElem? hv)), hn, fun e => absurd e hk, fun _ => ?_⟩
  have q1 := hx i m hm
  have q2 := hy i v hv
  dsimp only at q1 q2
  rw [hp] at q1 q2
  exact ⟨q1, q2⟩

private theorem holds_of_saved {params : List Moments} {first second : List Tensor} (fit : OptFits params [first, second]) {k : Nat} (hk : k ≠ 0) {a : Nat → List Nat → ℝ × ℝ}
    {s : Store ℝ} (h : MomentsSaved params first second k a s) :
    TensorsHold first (fun i I => ((params[i]?.map fun p => a p.value.id I).getD 0).1) s ∧
    TensorsHold second (fun i I => Real.sqrt ((params[i]?.map fun p => a p.value.id I).getD 0).2) s := by
  have l1 : first.length = params.length := fit.len _ (by simp)
  have l2 : second.length = params.length := fit.len _ (by simp)
  constructor
  · intro i m hm
    have hi := (List.getElem?_eq_some_iff.1 hm).1
    obtain ⟨v, hv⟩ : ∃ m, second[i]? = some m := ⟨_, List.getElem?_eq_getElem (by omega)⟩
    obtain ⟨p, hp⟩ : ∃ p, params[i]? = some p := ⟨_, List.getElem?_eq_getElem (by omega)⟩
    dsimp only
    rw [hp]
    exact ((h i p m v hp hm hv).2.2.2.2 hk).1
  · intro i v hv
    have hi := (List.getElem?_eq_some_iff.1 hv).1
    obtain ⟨m, hm⟩ : ∃ m, first[i]? = some m := ⟨_, List.getElem?_eq_getElem (by omega)⟩
    obtain ⟨p, hp⟩ : ∃ p, params[i]? = some p := ⟨_, List.getElem?_eq_getElem (by omega)⟩
    dsimp only
    rw [hp]
    exact ((h i p m v hp hm hv).2.2.2.2 hk).2

private theorem shapes_of_fits {params : List Moments} {first second : List Tensor} (fit : OptFits params [first, second]) :
    ∀ l ∈ [first, second], l.map Tensor.shape = params.map (fun p => p.value.shape) := by
  intro l hl
  have h1 := fit.len l hl
  refine List.ext_getElem (by simp [h1]) fun i hi hi' => ?_
  rw [List.length_map] at hi hi'
  rw [List.getElem_map, List.getElem_map]
  refine (fit.like l hl (params[i], l[i]) ?_).1
  rw [List.mem_iff_getElem]
  exact ⟨i, by simp only [List.length_zip]; omega, by rw [List.getElem_zip]⟩

private theorem dims_of_shapes {params params' : List Moments} (hshape : params'.map (fun p => p.value.shape) = params.map (fun p => p.value.shape))
    (hdim : ∀ p ∈ params, p.value.shape ≠ []) : ∀ p ∈ params', p.value.shape ≠ [] := by
  intro p hp e
  have : p.value.shape ∈ params'.map (fun p => p.value.shape) := List.mem_map_of_mem hp
  rw [hshape] at this
  obtain ⟨q, hq, e'⟩ := List.mem_map.1 this
  exact hdim q hq (e'.trans e)

/-- **Resumed training, `Adam`.** After `k > 0` steps the state is saved. An optimizer that has loaded it follows the same rule, and stores the states of the elements of step
`k`; so (by `C42_adam`) its further steps are those the first optimizer would have made. -/
theorem C56_adam_resumes {o o' : Adam ℝ} (fit : o.Fits) (hams : o.amsgrad = false) (hmax : o.maxSecondMoments = []) (fit' : o'.Fits) (hams' : o'.amsgrad = false)
    (hshape : o'.params.map (fun p => p.value.shape) = o.params.map (fun p => p.value.shape)) (hdim : ∀ p ∈ o.params, p.value.shape ≠ [])
    {k : Nat} (hk : k ≠ 0) {a : Nat → List Nat → ℝ × ℝ} {s t : Store ℝ} {tmpId tmpId' : Nat} (hsaved : o.toNet.Saved k a s)
    (ht : TensorsReady (o'.firstMoments ++ o'.secondMoments) t)
    (hid : tmpId ∉ (o.firstMoments ++ o.secondMoments).map Tensor.id) (hid' : tmpId' ∉ (o'.firstMoments ++ o'.secondMoments).map Tensor.id) :
    ∃ f s1 t', o.saveState (k + 1) tmpId s = .ok (f, s1) ∧ o'.loadState f tmpId' t = .ok ((o'.withHyper o, k + 1), t') ∧
      (o'.withHyper o).toNet.rule = o.toNet.rule ∧ (o'.withHyper o).toNet.params = o'.params ∧ (o'.withHyper o).Fits ∧
      ∃ a', (∀ (i : Nat) (p p' : Moments), o.params[i]? = some p → o'.params[i]? = some p' → a' p'.value.id = a p.value.id) ∧ (o'.withHyper o).toNet.Saved k a' t' := by
  change MomentsSaved o.params o.firstMoments o.secondMoments k a s at hsaved
  have f2 : OptFits o.params [o.firstMoments, o.secondMoments] := by
    have := fit
    unfold Adam.Fits at this
    rwa [hams] at this
  have f2' : OptFits o'.params [o'.firstMoments, o'.secondMoments] := by
    have := fit'
    unfold Adam.Fits at this
    rwa [hams'] at this
  have hlen : o'.params.length = o.params.length := by simpa using congrArg List.length hshape
  have hsh := shapes_of_fits f2
  have hsh' := shapes_of_fits f2'
  have hm := moments_of_fits f2 hdim (ready_of_saved f2 hsaved)
  have hm' := moments_of_fits f2' (dims_of_shapes hshape hdim) ht
  obtain ⟨hx, hy⟩ := holds_of_saved f2 hk hsaved
  obtain ⟨f, s1, e1, -, hload⟩ := C56_adam (n := k + 1) hmax hm hx hy hid
  obtain ⟨t', e2, q1, q2, q3, -⟩ := hload o' tmpId' t hm'
    ⟨by rw [hsh' _ (by simp), hsh _ (by simp), hshape], by rw [hsh' _ (by simp), hsh _ (by simp), hshape]⟩ hid'
  exact ⟨f, s1, t', e1, e2, rfl, rfl, fit', saved_of_holds f2 f2' hlen hk hsaved q3 q1 q2⟩

/-- **Resumed training, `FusedAdamW`**, stored in the default type: real numbers need no rounding (`float32` is exact). -/
theorem C56_fused_adamw_resumes {r : TorchTypes ℝ} (hr : r.float32 = fun x => x) {o o' : Fused ℝ} (fit : o.Fits) (fit' : o'.Fits) (invalidate : Bool)
    (hshape : o'.params.map (fun p => p.value.shape) = o.params.map (fun p => p.value.shape)) (hdim : ∀ p ∈ o.params, p.value.shape ≠ [])
    {k : Nat} (hk : k ≠ 0) {a : Nat → List Nat → ℝ × ℝ} {s t : Store ℝ} {tmpId tmpId' : Nat} (hsaved : (o.toNetAdamW invalidate).Saved k a s)
    (ht : TensorsReady (o'.firstMoments ++ o'.secondMoments) t)
    (hid : tmpId ∉ (o.firstMoments ++ o.secondMoments).map Tensor.id) (hid' : tmpId' ∉ (o'.firstMoments ++ o'.secondMoments).map Tensor.id) :
    ∃ f s1 t', o.adamwSave r "fp32" (k + 1 : Nat) tmpId s = .ok (f, s1) ∧ o'.loadState r f tmpId' t = .ok ((o'.withHyper o, ((k + 1 : Nat) : Int)), t') ∧
      ((o'.withHyper o).toNetAdamW invalidate).rule = (o.toNetAdamW invalidate).rule ∧ ((o'.withHyper o).toNetAdamW invalidate).params = o'.params ∧ (o'.withHyper o).Fits ∧
      ∃ a', (∀ (i : Nat) (p p' : Moments), o.params[i]? = some p → o'.params[i]? = some p' → a' p'.value.id = a p.value.id) ∧
        ((o'.withHyper o).toNetAdamW invalidate).Saved k a' t' := by
  change MomentsSaved o.params o.firstMoments o.secondMoments k a s at hsaved
  have f2 : OptFits o.params [o.firstMoments, o.secondMoments] := fit
  have f2' : OptFits o'.params [o'.firstMoments, o'.secondMoments] := fit'
  have hlen : o'.params.length = o.params.length := by simpa using congrArg List.length hshape
  have hsh := shapes_of_fits f2
  have hsh' := shapes_of_fits f2'
  have hm := moments_of_fits f2 hdim (ready_of_saved f2 hsaved)
  have hm' := moments_of_fits f2' (dims_of_shapes hshape hdim) ht
  obtain ⟨hx, hy⟩ := holds_of_saved f2 hk hsaved
  obtain ⟨f, s1, e1, -, hload⟩ := C56_fused_adamw (t := r) (dtype := "fp32") (n := ((k + 1 : Nat) : Int)) (.inl rfl) hm hx hy hid
  obtain ⟨t', e2, q1, q2, q3, -⟩ := hload o' tmpId' t hm'
    ⟨by rw [hsh' _ (by simp), hsh _ (by simp), hshape], by rw [hsh' _ (by simp), hsh _ (by simp), hshape]⟩ hid'
  rw [hr] at q1 q2
  exact ⟨f, s1, t', e1, e2, rfl, rfl, fit', saved_of_holds f2 f2' hlen hk hsaved q3 q1 q2⟩

/-! ### The hypotheses can be met -/

private def exP (i : Nat) : Moments := ⟨⟨i, [5, 3], [2, 2]⟩, ⟨i + 1, [5, 3], [2, 2]⟩, true⟩
private def exQ (i : Nat) : Moments := ⟨⟨i, [5, 3], [3, 3]⟩, ⟨i + 1, [5, 3], [3, 3]⟩, true⟩
private noncomputable def exO : Adam ℝ := ⟨[exP 0, exP 2], [⟨4, [5, 3], [2, 2]⟩, ⟨6, [5, 3], [2, 2]⟩], [⟨5, [5, 3], [2, 2]⟩, ⟨7, [5, 3], [2, 2]⟩], [], false, 1, 0, 0, 0, 1⟩
private noncomputable def exO' : Adam ℝ := ⟨[exQ 0, exQ 2], [⟨4, [5, 3], [3, 3]⟩, ⟨6, [5, 3], [3, 3]⟩], [⟨5, [5, 3], [3, 3]⟩, ⟨7, [5, 3], [3, 3]⟩], [], false, 2, 0, 0, 0, 3⟩

private noncomputable def exA : Nat → List Nat → ℝ × ℝ := fun i J => (((i + J.getD 0 0 : Nat) : ℝ), 1)

/-- Two parameters of shape `5×3`, stored from tiles of `2×2` and loaded into tiles of `3×3`. -/
example : ∃ (s t : Store ℝ), exO.Fits ∧ exO'.Fits ∧ exO'.params.map (fun p => p.value.shape) = exO.params.map (fun p => p.value.shape) ∧
    (∀ p ∈ exO.params, p.value.shape ≠ []) ∧ exO.toNet.Saved 1 exA s ∧ TensorsReady (exO'.firstMoments ++ exO'.secondMoments) t ∧
    8 ∉ (exO.firstMoments ++ exO.secondMoments).map Tensor.id := by
  have h := storeOf_spec [((⟨4, [5, 3], [2, 2]⟩ : Tensor), fun I : List Nat => ((0 + I.getD 0 0 : Nat) : ℝ)), (⟨6, [5, 3], [2, 2]⟩, fun I => ((2 + I.getD 0 0 : Nat) : ℝ)),
    (⟨5, [5, 3], [2, 2]⟩, fun _ => Real.sqrt 1), (⟨7, [5, 3], [2, 2]⟩, fun _ => Real.sqrt 1)] (by simp [Tensor.WF]) (by simp)
  have h' := storeOf_spec [((⟨4, [5, 3], [3, 3]⟩ : Tensor), fun _ : List Nat => (0 : ℝ)), (⟨6, [5, 3], [3, 3]⟩, fun _ => 0),
    (⟨5, [5, 3], [3, 3]⟩, fun _ => 0), (⟨7, [5, 3], [3, 3]⟩, fun _ => 0)] (by simp [Tensor.WF]) (by simp)
  generalize storeOf _ = s at h
  generalize storeOf _ = t at h'
  simp only [List.forall_mem_cons, List.not_mem_nil, IsEmpty.forall_iff, implies_true, and_true] at h h'
  obtain ⟨⟨a1, a2⟩, ⟨b1, b2⟩, ⟨c1, c2⟩, ⟨d1, d2⟩⟩ := h
  obtain ⟨⟨a1', -⟩, ⟨b1', -⟩, ⟨c1', -⟩, ⟨d1', -⟩⟩ := h'
  refine ⟨s, t, ?_, ?_, rfl, by simp [exO, exP], ?_, ?_, by decide⟩
  · refine ⟨by decide, by simp [exO, exP], by decide, by decide⟩
  · refine ⟨by decide, by simp [exO', exQ], by decide, by decide⟩
  · change MomentsSaved exO.params exO.firstMoments exO.secondMoments 1 exA s
    intro i p m v hp hm hv
    rcases i with _ | _ | i
    · cases hp; cases hm; cases hv
      exact ⟨a1, c1, fun _ => zero_le_one, fun e => absurd e one_ne_zero, fun _ => ⟨a2, c2⟩⟩
    · cases hp; cases hm; cases hv
      exact ⟨b1, d1, fun _ => zero_le_one, fun e => absurd e one_ne_zero, fun _ => ⟨b2, d2⟩⟩
    · cases hp
  · simp only [TensorsReady, exO', List.cons_append, List.nil_append, List.forall_mem_cons, List.not_mem_nil, IsEmpty.forall_iff, implies_true, and_true]
    exact ⟨a1', b1', c1', d1'⟩

end NNTile
