import Verif.Spec.Network
import Verif.Lib.Layer
import Mathlib.Analysis.Calculus.Deriv.Add
import Mathlib.Data.List.Nodup
import Mathlib.Algebra.BigOperators.Group.List.Basic
import Mathlib.Tactic.Ring
/-!
# Networks of layers: forward propagation computes all activations, backward propagation computes the transposed Jacobian of the network
-/
namespace NNTile
open Finset

theorem Moments.value_mem_ids (m : Moments) : m.value.id ∈ m.ids := by simp [Moments.ids]

theorem netIds_cons (given : List Moments) (l : NetLayer) (ls : List NetLayer) :
    (netIds given (l :: ls)).Perm (netIds (l.out :: given) ls ++ l.temps.map Tensor.id) := by
  rw [List.perm_iff_count]
  intro a
  simp only [netIds, List.flatMap_cons, List.count_append]
  omega

/-- What distinctness of all identities means for the first layer. -/
structure Sep (given : List Moments) (l : NetLayer) (ls : List NetLayer) : Prop where
  rest : (netIds (l.out :: given) ls).Nodup
  temps : ∀ i ∈ l.temps.map Tensor.id, i ∉ netIds (l.out :: given) ls
  out_given : ∀ i ∈ l.out.ids, i ∉ given.flatMap Moments.ids
  rest_given : ∀ i ∈ (l.out :: given).flatMap Moments.ids, i ∉ ls.flatMap (fun l => l.out.ids ++ l.temps.map Tensor.id)
  out_grad : ∀ i ∈ l.out.gradIds, i ≠ l.out.value.id

theorem sep_of_nodup {given : List Moments} {l : NetLayer} {ls : List NetLayer} (h : (netIds given (l :: ls)).Nodup) : Sep given l ls := by
  rw [(netIds_cons given l ls).nodup_iff, List.nodup_append] at h
  obtain ⟨h1, h2, h3⟩ := h
  have h1' := h1
  rw [netIds, List.nodup_append] at h1
  obtain ⟨h4, h5, h6⟩ := h1
  rw [List.flatMap_cons, List.nodup_append] at h4
  obtain ⟨h7, h8, h9⟩ := h4
  refine ⟨h1', fun i hi hj => h3 i hj i hi rfl, fun i hi hj => h9 i hi i hj rfl, fun i hi hj => h6 i hi i hj rfl, ?_⟩
  rw [Moments.ids, List.nodup_cons] at h7
  rintro i hi rfl
  exact h7.1 hi

theorem netEnv_of_not_mem {ls : List NetLayer} {i : Nat} (h : ∀ l ∈ ls, l.out.value.id ≠ i) : ∀ env : Env, netEnv env ls i = env i := by
  induction ls with
  | nil => intro env; rfl
  | cons l ls ih =>
    intro env
    rw [netEnv, ih (fun l' hl' => h l' (by simp [hl'])), Function.update_of_ne (h l (by simp)).symm]

theorem netEnv_given {given : List Moments} {ls : List NetLayer} (h : (netIds given ls).Nodup) (env : Env) {m : Moments} (hm : m ∈ given) :
    netEnv env ls m.value.id = env m.value.id := by
  apply netEnv_of_not_mem
  intro l hl e
  rw [netIds, List.nodup_append] at h
  refine h.2.2 m.value.id (List.mem_flatMap.2 ⟨m, hm, m.value_mem_ids⟩) l.out.value.id (List.mem_flatMap.2 ⟨l, hl, ?_⟩) e.symm
  simp [Moments.ids]

theorem AllReady.changed {ts : List Tensor} {s s' : Store ℝ} {ids : List Nat} (h : AllReady ts s) (hc : OnlyChanged ids s s') (hi : ∀ T ∈ ts, T.id ∉ ids) :
    AllReady ts s' := fun T hT => hc.ready (h T hT) (hi T hT)

theorem ValuesHold.changed {ms : List Moments} {s s' : Store ℝ} {ids : List Nat} {env : Env} (h : ValuesHold ms s env) (hc : OnlyChanged ids s s')
    (hi : ∀ m ∈ ms, m.value.id ∉ ids) : ValuesHold ms s' env := fun m hm => ⟨hc.ready (h m hm).1 (hi m hm), hc.holds (h m hm).2 (hi m hm)⟩

/-- Tensors which forward propagation changes. -/
def fwdIds (ls : List NetLayer) : List Nat := ls.flatMap fun l => l.out.value.id :: l.temps.map Tensor.id

theorem fwdIds_subset {ls : List NetLayer} {i : Nat} (h : i ∈ fwdIds ls) : i ∈ ls.flatMap (fun l => l.out.ids ++ l.temps.map Tensor.id) := by
  obtain ⟨l, hl, hi⟩ := List.mem_flatMap.1 h
  refine List.mem_flatMap.2 ⟨l, hl, ?_⟩
  rcases List.mem_cons.1 hi with rfl | hi
  · simp [Moments.ids]
  · exact List.mem_append_right _ hi

theorem net_forward (ls : List NetLayer) : ∀ (given : List Moments) (s : Store ℝ) (env : Env), (∀ l ∈ ls, l.Correct) → Ordered given ls →
    (netIds given ls).Nodup → NetValid env ls → ValuesHold given s env → (∀ l ∈ ls, AllReady (l.out.value :: l.temps) s) →
    Runs (netForward ls) s (fwdIds ls) (fun s' => ValuesHold (given ++ ls.map NetLayer.out) s' (netEnv env ls) ∧
      ∀ l ∈ ls, l.Saved (netEnv env ls) s' ∧ AllReady l.temps s') := by
  induction ls with
  | nil =>
    intro given s env _ _ _ _ hv _
    exact Runs.nil ⟨by simpa [netEnv] using hv, by simp⟩
  | cons l ls ih =>
    intro given s env hc ho hn hval hv hr
    have sp := sep_of_nodup hn
    have hcl := hc l (by simp)
    have hins : ValuesHold l.ins s env := fun m hm => hv m (ho.1 m hm)
    rw [netForward, List.map_cons]
    refine ((hcl.forward s env hval.1 hins (hr l (by simp)))).cons' (ids := fwdIds (l :: ls)) (fun i hi => by
      rw [fwdIds, List.flatMap_cons]; exact List.mem_append_left _ hi) fun s1 hs1 hq => ?_
    obtain ⟨hout, hrd, hsav⟩ := hq
    have hgiv : ∀ m ∈ given, m.value.id ∉ l.out.value.id :: l.temps.map Tensor.id := by
      intro m hm hi
      have hmi : m.value.id ∈ given.flatMap Moments.ids := List.mem_flatMap.2 ⟨m, hm, m.value_mem_ids⟩
      rcases List.mem_cons.1 hi with e | hi
      · exact sp.out_given _ (l.out.value_mem_ids) (e ▸ hmi)
      · refine sp.temps _ hi ?_
        rw [netIds, List.flatMap_cons]
        exact List.mem_append_left _ (List.mem_append_right _ hmi)
    have hv1 : ValuesHold (l.out :: given) s1 (Function.update env l.out.value.id (l.F env)) := by
      intro m hm
      rcases List.mem_cons.1 hm with rfl | hm
      · rw [Function.update_self]
        exact ⟨hrd _ (by simp), hout⟩
      · have hne : m.value.id ≠ l.out.value.id := fun e => hgiv m hm (by simp [e])
        rw [Function.update_of_ne hne]
        exact ⟨hs1.ready (hv m hm).1 (hgiv m hm), hs1.holds (hv m hm).2 (hgiv m hm)⟩
    have hr1 : ∀ l' ∈ ls, AllReady (l'.out.value :: l'.temps) s1 := by
      intro l' hl'
      refine (hr l' (by simp [hl'])).changed hs1 ?_
      intro T hT hi
      have hT' : T.id ∈ ls.flatMap (fun l => l.out.ids ++ l.temps.map Tensor.id) := by
        refine fwdIds_subset (List.mem_flatMap.2 ⟨l', hl', ?_⟩)
        rcases List.mem_cons.1 hT with rfl | hT
        · simp
        · exact List.mem_cons_of_mem _ (List.mem_map_of_mem hT)
      rcases List.mem_cons.1 hi with e | hi
      · exact sp.rest_given _ (by rw [List.flatMap_cons]; exact List.mem_append_left _ l.out.value_mem_ids) (e ▸ hT')
      · exact sp.temps _ hi (by rw [netIds]; exact List.mem_append_right _ hT')
    refine (ih (l.out :: given) s1 _ (fun l' hl' => hc l' (by simp [hl'])) ho.2 sp.rest hval.2 hv1 hr1).imp (fun i hi => by
      rw [fwdIds, List.flatMap_cons]; exact List.mem_append_right _ hi) ?_
    rintro s' hs' ⟨hv', hs2⟩
    have htl : ∀ T ∈ l.temps, T.id ∉ fwdIds ls := by
      intro T hT hi
      refine sp.temps _ (List.mem_map_of_mem hT) ?_
      rw [netIds]; exact List.mem_append_right _ (fwdIds_subset hi)
    refine ⟨fun m hm => hv' m ?_, ?_⟩
    · simp only [List.map_cons, List.mem_append, List.mem_cons] at hm ⊢
      tauto
    · intro l' hl'
      rcases List.mem_cons.1 hl' with rfl | hl'
      · refine ⟨?_, ?_⟩
        · refine hcl.localS env _ ?_ _ (hcl.keep _ _ _ _ hs' htl hsav)
          intro m hm
          rw [netEnv_given hn env (ho.1 m hm)]
        · exact (AllReady.changed (fun T hT => hrd T (by simp [hT])) hs' htl)
      · exact hs2 l' hl'

/-! ### Backward propagation -/

theorem dotGrads_add (ms : List Moments) (g g' h : Env) : dotGrads ms (fun i J => g i J + g' i J) h = dotGrads ms g h + dotGrads ms g' h := by
  unfold dotGrads
  rw [← List.sum_map_add]
  congr 1
  refine List.map_congr_left fun m _ => ?_
  split
  · rw [← Finset.sum_add_distrib]
    exact Finset.sum_congr rfl fun J _ => by ring
  · simp

theorem dotGrads_congr {ms : List Moments} {g g' h h' : Env} (hg : ∀ m ∈ ms, g m.value.id = g' m.value.id) (hh : ∀ m ∈ ms, h m.value.id = h' m.value.id) :
    dotGrads ms g h = dotGrads ms g' h' := by
  unfold dotGrads
  congr 1
  exact List.map_congr_left fun m hm => by rw [hg m hm, hh m hm]

theorem dotGrads_perm {ms ms' : List Moments} (hp : ms.Perm ms') (g h : Env) : dotGrads ms g h = dotGrads ms' g h := (hp.map _).sum_eq

open Classical in
/-- Gradients of some of the tensors, extended by zero. -/
theorem dotGrads_extend {given ins : List Moments} (hsub : ∀ m ∈ ins, m ∈ given) (hn : (given.map fun m => m.value.id).Nodup)
    (hi : (ins.map fun m => m.value.id).Nodup) (g h : Env) :
    dotGrads given (fun i J => if i ∈ ins.map (fun m => m.value.id) then g i J else 0) h = dotGrads ins g h := by
  have hinj : ∀ m ∈ given, ∀ m' ∈ given, m.value.id = m'.value.id → m = m' := fun m hm m' hm' e => List.inj_on_of_nodup_map hn hm hm' e
  have hp : ((given.filter fun m => decide (m ∈ ins))).Perm ins := by
    rw [List.perm_ext_iff_of_nodup ((List.Nodup.of_map _ hn).filter _) (List.Nodup.of_map _ hi)]
    intro m
    simp only [List.mem_filter, decide_eq_true_eq]
    exact ⟨fun h => h.2, fun h => ⟨hsub m h, h⟩⟩
  rw [← dotGrads_perm hp]
  unfold dotGrads
  clear hp
  have key : ∀ L : List Moments, (∀ m ∈ L, m ∈ given) →
      (L.map fun m => if m.gradRequired then ∑ J ∈ box m.value.shape, (if m.value.id ∈ ins.map (fun m => m.value.id) then g m.value.id J else 0) * h m.value.id J else 0).sum =
      ((L.filter fun m => decide (m ∈ ins)).map fun m => if m.gradRequired then ∑ J ∈ box m.value.shape, g m.value.id J * h m.value.id J else 0).sum := by
    intro L
    induction L with
    | nil => simp
    | cons m L ih =>
      intro hL
      rw [List.map_cons, List.sum_cons, ih (fun m' hm' => hL m' (by simp [hm']))]
      by_cases hm : m ∈ ins
      · rw [List.filter_cons_of_pos (by simpa using hm), List.map_cons, List.sum_cons]
        have hmem : m.value.id ∈ ins.map (fun m => m.value.id) := List.mem_map.2 ⟨m, hm, rfl⟩
        simp only [if_pos hmem]
      · rw [List.filter_cons_of_neg (by simpa using hm)]
        have hmem : m.value.id ∉ ins.map (fun m => m.value.id) := by
          intro hmem
          obtain ⟨m', hm', e⟩ := List.mem_map.1 hmem
          exact hm (hinj m' (hsub m' hm') m (hL m (by simp)) e ▸ hm')
        simp only [if_neg hmem, zero_mul, Finset.sum_const_zero, ite_self, zero_add]
  exact key given fun m hm => hm

/-- Tensors which backward propagation changes. -/
def bwdIds (ls : List NetLayer) : List Nat := ls.flatMap fun l => l.ins.flatMap Moments.gradIds ++ l.temps.map Tensor.id

theorem Ordered.bwdIds_mem : ∀ {ls : List NetLayer} {given : List Moments}, Ordered given ls → ∀ {i : Nat}, i ∈ bwdIds ls →
    (∃ m, (m ∈ given ∨ m ∈ ls.map NetLayer.out) ∧ i ∈ m.gradIds) ∨ ∃ l ∈ ls, i ∈ l.temps.map Tensor.id := by
  intro ls
  induction ls with
  | nil => intro given _ i hi; simp [bwdIds] at hi
  | cons l ls ih =>
    intro given ho i hi
    rw [bwdIds, List.flatMap_cons] at hi
    rcases List.mem_append.1 hi with hi | hi
    · rcases List.mem_append.1 hi with hi | hi
      · obtain ⟨m, hm, hi⟩ := List.mem_flatMap.1 hi
        exact .inl ⟨m, .inl (ho.1 m hm), hi⟩
      · exact .inr ⟨l, by simp, hi⟩
    · rcases ih ho.2 hi with ⟨m, hm, hi⟩ | ⟨l', hl', hi⟩
      · refine .inl ⟨m, ?_, hi⟩
        simp only [List.mem_cons, List.map_cons] at hm ⊢
        tauto
      · exact .inr ⟨l', by simp [hl'], hi⟩

theorem Runs.append {α : Type} {s : Store α} {ids ids' : List Nat} {P Q : Store α → Prop} {p q : List (M (List (Task1 α)))}
    (h : Runs (seqAsync p) s ids Q) (k : ∀ s', OnlyChanged ids s s' → Q s' → Runs (seqAsync q) s' ids' P) : Runs (seqAsync (p ++ q)) s (ids ++ ids') P := by
  have hs : ∀ (p : List (M (List (Task1 α)))) t, seqAsync p = .ok t → ∀ t', seqAsync q = .ok t' → seqAsync (p ++ q) = .ok (t ++ t') := by
    intro p
    induction p with
    | nil =>
      intro t ht t' ht'
      cases ht
      simpa using ht'
    | cons a p ih =>
      intro t ht t' ht'
      rw [List.cons_append]
      simp only [seqAsync] at ht ⊢
      cases ha : a with
      | error e => rw [ha] at ht; cases ht
      | ok ta =>
        rw [ha, M.bind_ok] at ht
        cases hb : seqAsync p with
        | error e => rw [hb] at ht; cases ht
        | ok tb =>
          rw [hb, M.bind_ok] at ht
          cases ht
          rw [M.bind_ok, ih tb hb t' ht', M.bind_ok, List.append_assoc]
  obtain ⟨t, s1, e1, e2, e3, e4⟩ := h
  obtain ⟨t', s2, f1, f2, f3, f4⟩ := k s1 e3 e4
  exact ⟨t ++ t', s2, hs p t e1 t' f1, by rw [runAll1_append, e2, M.bind_ok, f2], e3.trans f3, f4⟩

theorem gradIds_subset {m : Moments} {i : Nat} (h : i ∈ m.gradIds) : i ∈ m.ids := List.mem_cons_of_mem _ h

/-- Identities which belong to different tensors of the network differ. -/
theorem ids_inj {given : List Moments} (h : (given.flatMap Moments.ids).Nodup) {m m' : Moments} (hm : m ∈ given) (hm' : m' ∈ given) {i : Nat}
    (hi : i ∈ m.ids) (hi' : i ∈ m'.ids) : m = m' := by
  induction given with
  | nil => simp at hm
  | cons a L ih =>
    rw [List.flatMap_cons, List.nodup_append] at h
    rcases List.mem_cons.1 hm with e | ha <;> rcases List.mem_cons.1 hm' with e' | hb
    · rw [e, e']
    · subst e
      exact absurd rfl (h.2.2 i hi i (List.mem_flatMap.2 ⟨m', hb, hi'⟩))
    · subst e'
      exact absurd rfl (h.2.2 i hi' i (List.mem_flatMap.2 ⟨m, ha, hi⟩))
    · exact ih h.2.1 ha hb

theorem value_not_gradIds {given : List Moments} (h : (given.flatMap Moments.ids).Nodup) {m m' : Moments} (hm : m ∈ given) (hm' : m' ∈ given) :
    m.value.id ∉ m'.gradIds := by
  intro hi
  have e := ids_inj h hm hm' m.value_mem_ids (gradIds_subset hi)
  subst e
  have : (Moments.ids m).Nodup := (List.nodup_flatMap.1 h).1 m hm
  rw [Moments.ids, List.nodup_cons] at this
  exact this.1 hi

theorem values_nodup {given : List Moments} (h : (given.flatMap Moments.ids).Nodup) : (given.map fun m => m.value.id).Nodup := by
  induction given with
  | nil => simp
  | cons a L ih =>
    rw [List.flatMap_cons, List.nodup_append] at h
    rw [List.map_cons, List.nodup_cons]
    refine ⟨?_, ih h.2.1⟩
    intro hi
    obtain ⟨m, hm, e⟩ := List.mem_map.1 hi
    exact h.2.2 _ a.value_mem_ids _ (List.mem_flatMap.2 ⟨m, hm, m.value_mem_ids⟩) e.symm

theorem netIds_allMoments {given : List Moments} {ls : List NetLayer} (h : (netIds given ls).Nodup) :
    ((given ++ ls.map NetLayer.out).flatMap Moments.ids).Nodup ∧
    ∀ l ∈ ls, ∀ i ∈ l.temps.map Tensor.id, i ∉ (given ++ ls.map NetLayer.out).flatMap Moments.ids := by
  induction ls generalizing given with
  | nil => simpa [netIds] using h
  | cons l ls ih =>
    have sp := sep_of_nodup h
    obtain ⟨h1, h2⟩ := ih sp.rest
    have hp : ((given ++ (l :: ls).map NetLayer.out).flatMap Moments.ids).Perm ((l.out :: given ++ ls.map NetLayer.out).flatMap Moments.ids) := by
      refine List.Perm.flatMap_right _ ?_
      simp only [List.map_cons, List.cons_append]
      exact List.perm_middle
    refine ⟨hp.nodup_iff.2 h1, ?_⟩
    intro l' hl' i hi hmem
    rw [hp.mem_iff] at hmem
    rcases List.mem_cons.1 hl' with rfl | hl'
    · refine sp.temps i hi ?_
      rw [netIds, List.mem_append]
      rw [List.flatMap_append, List.mem_append] at hmem
      refine hmem.imp id fun hm => ?_
      obtain ⟨m, hm, him⟩ := List.mem_flatMap.1 hm
      obtain ⟨l2, hl2, rfl⟩ := List.mem_map.1 hm
      exact List.mem_flatMap.2 ⟨l2, hl2, List.mem_append_left _ him⟩
    · exact h2 l' hl' i hi hmem

/-- Backward propagation needs only the values of the tensors which the layers read. -/
theorem net_backward_ins (ls : List NetLayer) : ∀ (given : List Moments) (s : Store ℝ) (env G0 : Env), (∀ l ∈ ls, l.Correct) → Ordered given ls →
    (netIds given ls).Nodup → (∀ l ∈ ls, ValuesHold l.ins s (netEnv env ls)) →
    (∀ l ∈ ls, l.Saved (netEnv env ls) s ∧ AllReady l.temps s) → NetRegular env ls → GradsHold (given ++ ls.map NetLayer.out) s G0 →
    Runs (netBackward ls) s (bwdIds ls) (fun s' => (∀ l ∈ ls, AllReady l.temps s' ∧ l.out.grad.Ready s') ∧
      ∃ g : Env, GradsHold given s' (fun i J => G0 i J + g i J) ∧ IsNetVJP given ls env G0 g) := by
  classical
  induction ls with
  | nil =>
    intro given s env G0 _ _ _ _ _ _ hg
    refine Runs.nil ⟨by simp, fun _ _ => 0, ?_, ?_⟩
    · simpa using hg
    · intro c h _
      refine ⟨fun _ _ => 0, by simp, ?_⟩
      simp [dotGrads]
  | cons l ls ih =>
    intro given s env G0 hc ho hn hv hs hr hg
    have sp := sep_of_nodup hn
    have hcl := hc l (by simp)
    have hmem : ∀ m, m ∈ l.out :: given ++ ls.map NetLayer.out → m ∈ given ++ (l :: ls).map NetLayer.out := by
      intro m hm
      simp only [List.map_cons, List.mem_append, List.mem_cons] at hm ⊢
      tauto
    obtain ⟨hall, htmp⟩ := netIds_allMoments hn
    have hgn : (given.flatMap Moments.ids).Nodup := by
      rw [List.flatMap_append, List.nodup_append] at hall
      exact hall.1
    rw [netBackward, List.reverse_cons, List.map_append]
    have hbi : ∀ i, i ∈ bwdIds ls ++ bwdIds [l] → i ∈ bwdIds (l :: ls) := by
      intro i hi
      simp only [bwdIds, List.flatMap_cons, List.flatMap_nil, List.append_nil, List.mem_append] at hi ⊢
      tauto
    refine Runs.mono ?_ hbi
    refine (ih (l.out :: given) s (Function.update env l.out.value.id (l.F env)) G0 (fun l' hl' => hc l' (by simp [hl'])) ho.2 sp.rest
      (fun l' hl' => hv l' (by simp [hl'])) (fun l' hl' => hs l' (by simp [hl'])) hr.2 (fun m hm => hg m (hmem m hm))).append ?_
    rintro s1 hs1 ⟨htr, g1, hg1, hvjp1⟩
    -- what is not changed by the backward propagation of the other layers
    have hvals : ∀ m ∈ given, m.value.id ∉ bwdIds ls := by
      intro m hm hi
      rcases ho.2.bwdIds_mem hi with ⟨m', hm', hi'⟩ | ⟨l', hl', hi'⟩
      · refine value_not_gradIds hall (m := m) (m' := m') (by simp [hm]) ?_ hi'
        simp only [List.map_cons, List.mem_append, List.mem_cons] at hm' ⊢
        tauto
      · exact htmp l' (by simp [hl']) _ hi' (List.mem_flatMap.2 ⟨m, by simp [hm], m.value_mem_ids⟩)
    have htl : ∀ T ∈ l.temps, T.id ∉ bwdIds ls := by
      intro T hT hi
      have hTi : T.id ∈ l.temps.map Tensor.id := List.mem_map_of_mem hT
      rcases ho.2.bwdIds_mem hi with ⟨m', hm', hi'⟩ | ⟨l', hl', hi'⟩
      · refine htmp l (by simp) _ hTi (List.mem_flatMap.2 ⟨m', ?_, gradIds_subset hi'⟩)
        simp only [List.map_cons, List.mem_append, List.mem_cons] at hm' ⊢
        tauto
      · refine sp.temps _ hTi ?_
        rw [netIds]
        exact List.mem_append_right _ (List.mem_flatMap.2 ⟨l', hl', List.mem_append_right _ hi'⟩)
    have henv : ∀ m ∈ given, netEnv env (l :: ls) m.value.id = env m.value.id := fun m hm => netEnv_given hn env hm
    have hins : ValuesHold l.ins s1 env := by
      intro m hm
      have := hv l (by simp) m hm
      rw [henv m (ho.1 m hm)] at this
      exact ⟨hs1.ready this.1 (hvals m (ho.1 m hm)), hs1.holds this.2 (hvals m (ho.1 m hm))⟩
    have hsav : l.Saved env s1 := by
      refine hcl.localS (netEnv env (l :: ls)) env (fun m hm => henv m (ho.1 m hm)) _ (hcl.keep _ _ _ _ hs1 htl (hs l (by simp)).1)
    have htr1 : AllReady l.temps s1 := (hs l (by simp)).2.changed hs1 htl
    have hdy := hg1 l.out (by simp) hcl.required
    refine Runs.mono (ids := l.ins.flatMap Moments.gradIds ++ l.temps.map Tensor.id) ?_ (by simp [bwdIds])
    refine Runs.cons ((hcl.backward s1 env _ (fun i J => G0 i J + g1 i J) hr.1 hins hsav htr1 hdy.1 hdy.2
      (fun m hm => hg1 m (by simp [ho.1 m hm])))) ?_
    rintro s2 hs2 ⟨htr2, g2, hg2, hvjp2⟩
    refine Runs.nil ⟨?_, fun i J => g1 i J + (if i ∈ l.ins.map (fun m => m.value.id) then g2 i J else 0), ?_, ?_⟩
    · intro l' hl'
      have hog : ∀ l' ∈ l :: ls, l'.out.grad.id ∉ l.ins.flatMap Moments.gradIds ++ l.temps.map Tensor.id := by
        intro l' hl' hi
        have hreq := (hc l' hl').required
        have hgi : l'.out.grad.id ∈ l'.out.ids := by simp [Moments.ids, Moments.gradIds, hreq]
        rcases List.mem_append.1 hi with hi | hi
        · obtain ⟨m, hm, hi⟩ := List.mem_flatMap.1 hi
          rw [List.flatMap_append, List.nodup_append] at hall
          exact hall.2.2 _ (List.mem_flatMap.2 ⟨m, ho.1 m hm, gradIds_subset hi⟩) _ (List.mem_flatMap.2 ⟨l'.out, List.mem_map_of_mem hl', hgi⟩) rfl
        · exact htmp l (by simp) _ hi (List.mem_flatMap.2 ⟨l'.out, List.mem_append_right _ (List.mem_map_of_mem hl'), hgi⟩)
      rcases List.mem_cons.1 hl' with rfl | hl'
      · exact ⟨htr2, hs2.ready hdy.1 (hog _ (by simp))⟩
      · refine ⟨(htr l' hl').1.changed hs2 ?_, hs2.ready (htr l' hl').2 (hog _ (by simp [hl']))⟩
        intro T hT hi
        have hTi : T.id ∈ l'.temps.map Tensor.id := List.mem_map_of_mem hT
        rcases List.mem_append.1 hi with hi | hi
        · obtain ⟨m, hm, hi⟩ := List.mem_flatMap.1 hi
          exact htmp l' (by simp [hl']) _ hTi (List.mem_flatMap.2 ⟨m, by simp [ho.1 m hm], gradIds_subset hi⟩)
        · refine sp.temps _ hi ?_
          rw [netIds]
          exact List.mem_append_right _ (List.mem_flatMap.2 ⟨l', hl', List.mem_append_right _ hTi⟩)
    · intro m hm
      by_cases hmi : m ∈ l.ins
      · have hmem2 : m.value.id ∈ l.ins.map (fun m => m.value.id) := List.mem_map.2 ⟨m, hmi, rfl⟩
        have := hg2 m hmi
        simp only [if_pos hmem2]
        simpa only [add_assoc] using this
      · have hmem2 : m.value.id ∉ l.ins.map (fun m => m.value.id) := by
          intro h
          obtain ⟨m', hm', e⟩ := List.mem_map.1 h
          have := ids_inj hgn hm (ho.1 m' hm') m.value_mem_ids (e ▸ m'.value_mem_ids)
          exact hmi (this ▸ hm')
        have := (hg1 m (by simp [hm])).changed hs2 (by
          intro i hi hj
          rcases List.mem_append.1 hj with hj | hj
          · obtain ⟨m', hm', hj⟩ := List.mem_flatMap.1 hj
            have := ids_inj hgn hm (ho.1 m' hm') (gradIds_subset hi) (gradIds_subset hj)
            exact hmi (this ▸ hm')
          · exact htmp l (by simp) _ hj (List.mem_flatMap.2 ⟨m, by simp [hm], gradIds_subset hi⟩))
        simpa only [if_neg hmem2, add_zero] using this
    · intro c h hcv
      obtain ⟨Do, hDo, hDs⟩ := hvjp2 c h (fun m hm => hcv m (ho.1 m hm))
      have hne : ∀ m ∈ given, m.value.id ≠ l.out.value.id := by
        intro m hm e
        exact sp.out_given _ l.out.value_mem_ids (List.mem_flatMap.2 ⟨m, hm, e ▸ m.value_mem_ids⟩)
      have hcv' : CurveAt (l.out :: given) (Function.update env l.out.value.id (l.F env))
          (fun t => Function.update (c t) l.out.value.id (l.F (c t))) (Function.update h l.out.value.id Do) := by
        intro m hm
        rcases List.mem_cons.1 hm with rfl | hm
        · simp only [Function.update_self]
          refine ⟨hcl.localF _ _ fun m hm => (hcv m (ho.1 m hm)).1, fun _ => hDo, fun hf => ?_⟩
          rw [hcl.required] at hf
          cases hf
        · simp only [Function.update_of_ne (hne m hm)]
          exact hcv m hm
      obtain ⟨D, hD, hsum⟩ := hvjp1 _ _ hcv'
      have hno : ∀ l' ∈ ls, l'.out.value.id ≠ l.out.value.id := by
        intro l' hl' e
        refine sp.rest_given l.out.value.id (by rw [List.flatMap_cons]; exact List.mem_append_left _ l.out.value_mem_ids) ?_
        exact List.mem_flatMap.2 ⟨l', hl', List.mem_append_left _ (e ▸ l'.out.value_mem_ids)⟩
      have hnet : ∀ e : Env, netEnv e (l :: ls) l.out.value.id = l.F e := by
        intro e
        rw [netEnv, netEnv_of_not_mem hno, Function.update_self]
      refine ⟨Function.update D l.out.value.id Do, ?_, ?_⟩
      · intro l' hl' I hI
        rcases List.mem_cons.1 hl' with rfl | hl'
        · simp only [hnet, Function.update_self]
          exact hDo I hI
        · rw [Function.update_of_ne (hno l' hl')]
          exact hD l' hl' I hI
      · rw [List.map_cons, List.sum_cons, Function.update_self]
        rw [List.map_congr_left (g := fun l => ∑ I ∈ box l.out.value.shape, G0 l.out.value.id I * D l.out.value.id I) (fun l' hl' => by
          rw [Function.update_of_ne (hno l' hl')])]
        rw [hsum, dotGrads_add, dotGrads_extend ho.1 (values_nodup hgn) hcl.nodup, ← hDs]
        have e1 : dotGrads (l.out :: given) g1 (Function.update h l.out.value.id Do) =
            ∑ I ∈ box l.out.value.shape, g1 l.out.value.id I * Do I + dotGrads given g1 h := by
          rw [dotGrads, List.map_cons, List.sum_cons, if_pos hcl.required, Function.update_self]
          congr 1
          exact dotGrads_congr (fun _ _ => rfl) (fun m hm => Function.update_of_ne (hne m hm) _ _)
        rw [e1]
        simp only [add_mul, Finset.sum_add_distrib]
        ring

theorem Ordered.ins_mem : ∀ {ls : List NetLayer} {given : List Moments}, Ordered given ls → ∀ l ∈ ls, ∀ m ∈ l.ins, m ∈ given ++ ls.map NetLayer.out := by
  intro ls
  induction ls with
  | nil => simp
  | cons l ls ih =>
    intro given ho l' hl' m hm
    rcases List.mem_cons.1 hl' with rfl | hl'
    · exact List.mem_append_left _ (ho.1 m hm)
    · have := ih ho.2 l' hl' m hm
      simp only [List.map_cons, List.mem_append, List.mem_cons] at this ⊢
      tauto

theorem net_backward (ls : List NetLayer) (given : List Moments) (s : Store ℝ) (env G0 : Env) (hc : ∀ l ∈ ls, l.Correct) (ho : Ordered given ls)
    (hn : (netIds given ls).Nodup) (hv : ValuesHold (given ++ ls.map NetLayer.out) s (netEnv env ls))
    (hs : ∀ l ∈ ls, l.Saved (netEnv env ls) s ∧ AllReady l.temps s) (hr : NetRegular env ls) (hg : GradsHold (given ++ ls.map NetLayer.out) s G0) :
    Runs (netBackward ls) s (bwdIds ls) (fun s' => (∀ l ∈ ls, AllReady l.temps s' ∧ l.out.grad.Ready s') ∧
      ∃ g : Env, GradsHold given s' (fun i J => G0 i J + g i J) ∧ IsNetVJP given ls env G0 g) :=
  net_backward_ins ls given s env G0 hc ho hn (fun l hl m hm => hv m (ho.ins_mem l hl m hm)) hs hr hg

theorem sum_map_zero_of {β : Type} (L : List β) (f : β → ℝ) (h : ∀ b ∈ L, f b = 0) : (L.map f).sum = 0 := by
  rw [List.map_congr_left h]; simp

end NNTile
