import Verif.Lib.Network
/-!
# Networks which are executed in segments

A segment is a part of a network with its own backward propagation, which need not be that of the layers one after another.
-/
namespace NNTile
open Finset

/-- `back` is backward propagation of the layers `ls`, provided that the tensors `Z` contain zeros at the beginning. -/
def SegBack (Z : List Tensor) (given : List Moments) (ls : List NetLayer) (back : M (List (Task1 ℝ))) : Prop :=
  ∀ (s : Store ℝ) (env G0 : Env), (∀ l ∈ ls, ValuesHold l.ins s (netEnv env ls)) → (∀ l ∈ ls, l.Saved (netEnv env ls) s ∧ AllReady l.temps s) → NetRegular env ls →
    GradsHold (given ++ ls.map NetLayer.out) s G0 → (∀ T ∈ Z, T.Holds s (fun _ => 0)) →
    Runs back s (bwdIds ls) (fun s' => (∀ l ∈ ls, AllReady l.temps s' ∧ l.out.grad.Ready s') ∧
      ∃ g : Env, GradsHold given s' (fun i J => G0 i J + g i J) ∧ IsNetVJP given ls env G0 g)

theorem netEnv_append (a b : List NetLayer) : ∀ env : Env, netEnv env (a ++ b) = netEnv (netEnv env a) b := by
  induction a with
  | nil => intro env; rfl
  | cons l a ih => intro env; exact ih _

theorem NetRegular_append (a b : List NetLayer) : ∀ env : Env, NetRegular env (a ++ b) ↔ NetRegular env a ∧ NetRegular (netEnv env a) b := by
  induction a with
  | nil => intro env; simp [NetRegular, netEnv]
  | cons l a ih => intro env; simp only [List.cons_append, NetRegular, netEnv, ih, and_assoc]

theorem NetValid_append (a b : List NetLayer) : ∀ env : Env, NetValid env (a ++ b) ↔ NetValid env a ∧ NetValid (netEnv env a) b := by
  induction a with
  | nil => intro env; simp [NetValid, netEnv]
  | cons l a ih => intro env; simp only [List.cons_append, NetValid, netEnv, ih, and_assoc]

theorem Ordered.mono' {ls : List NetLayer} : ∀ {given given' : List Moments}, (∀ m ∈ given, m ∈ given') → Ordered given ls → Ordered given' ls := by
  induction ls with
  | nil => intro _ _ _ _; trivial
  | cons l ls ih =>
    intro given given' hs h
    refine ⟨fun m hm => hs m (h.1 m hm), ih (fun m hm => ?_) h.2⟩
    rcases List.mem_cons.1 hm with rfl | hm
    · simp
    · exact List.mem_cons_of_mem _ (hs m hm)

theorem Ordered_append (a b : List NetLayer) : ∀ given : List Moments, Ordered given (a ++ b) ↔ Ordered given a ∧ Ordered (given ++ a.map NetLayer.out) b := by
  induction a with
  | nil => intro given; simp [Ordered]
  | cons l a ih =>
    intro given
    simp only [List.cons_append, Ordered, ih, and_assoc, List.map_cons]
    refine and_congr_right fun _ => and_congr_right fun _ => ⟨Ordered.mono' ?_, Ordered.mono' ?_⟩ <;>
    · intro m hm
      simp only [List.mem_append, List.mem_cons] at hm ⊢
      tauto

theorem netIds_append (given : List Moments) (a b : List NetLayer) :
    (netIds given (a ++ b)).Perm (netIds (given ++ a.map NetLayer.out) b ++ a.flatMap fun l => l.temps.map Tensor.id) := by
  have h := List.flatMap_append_perm a (fun l : NetLayer => l.out.ids) (fun l => l.temps.map Tensor.id)
  rw [List.perm_iff_count] at h ⊢
  intro i
  have := h i
  simp only [netIds, List.flatMap_append, List.count_append, List.flatMap_map] at this ⊢
  omega

theorem netIds_append_left {given : List Moments} {a b : List NetLayer} (h : (netIds given (a ++ b)).Nodup) : (netIds given a).Nodup := by
  refine List.Nodup.sublist ?_ h
  unfold netIds
  rw [List.flatMap_append, ← List.append_assoc]
  exact List.sublist_append_left _ _

/-- What distinctness of all identities means for two parts. -/
theorem netIds_append_right {given : List Moments} {a b : List NetLayer} (h : (netIds given (a ++ b)).Nodup) :
    (netIds (given ++ a.map NetLayer.out) b).Nodup ∧ ∀ l ∈ a, ∀ i ∈ l.temps.map Tensor.id, i ∉ netIds (given ++ a.map NetLayer.out) b := by
  rw [(netIds_append given a b).nodup_iff, List.nodup_append] at h
  exact ⟨h.1, fun l hl i hi hj => h.2.2 i hj i (List.mem_flatMap.2 ⟨l, hl, hi⟩) rfl⟩

theorem netEnv_congr (ls : List NetLayer) : ∀ (given : List Moments) (e e' : Env), (∀ l ∈ ls, l.Correct) → Ordered given ls →
    (∀ m ∈ given, e m.value.id = e' m.value.id) → ∀ m ∈ given ++ ls.map NetLayer.out, netEnv e ls m.value.id = netEnv e' ls m.value.id := by
  induction ls with
  | nil => intro given e e' _ _ h m hm; exact h m (by simpa using hm)
  | cons l ls ih =>
    intro given e e' hc ho h m hm
    refine ih (l.out :: given) _ _ (fun l' hl' => hc l' (by simp [hl'])) ho.2 ?_ m ?_
    · intro m' hm'
      have hF : l.F e = l.F e' := (hc l (by simp)).localF _ _ fun m hm => h m (ho.1 m hm)
      by_cases e1 : m'.value.id = l.out.value.id
      · rw [e1, Function.update_self, Function.update_self, hF]
      · rw [Function.update_of_ne e1, Function.update_of_ne e1]
        rcases List.mem_cons.1 hm' with rfl | hm'
        · exact absurd rfl e1
        · exact h m' hm'
    · simp only [List.map_cons, List.mem_append, List.mem_cons] at hm ⊢
      tauto

/-- Tensors of the first part are not changed by backward propagation of the second part, except gradients. -/
theorem bwd_frame {given : List Moments} {a b : List NetLayer} (ho : Ordered given (a ++ b)) (hn : (netIds given (a ++ b)).Nodup) :
    (∀ m ∈ given ++ a.map NetLayer.out, m.value.id ∉ bwdIds b) ∧ ∀ l ∈ a, ∀ T ∈ l.temps, T.id ∉ bwdIds b := by
  obtain ⟨hB, hT⟩ := netIds_append_right hn
  obtain ⟨hall, htmp⟩ := netIds_allMoments hB
  have ho2 := ((Ordered_append a b given).1 ho).2
  constructor
  · intro m hm hi
    rcases ho2.bwdIds_mem hi with ⟨m', hm', hi'⟩ | ⟨l', hl', hi'⟩
    · exact value_not_gradIds hall (List.mem_append_left _ hm) (List.mem_append.2 hm') hi'
    · exact htmp l' hl' _ hi' (List.mem_flatMap.2 ⟨m, List.mem_append_left _ hm, m.value_mem_ids⟩)
  · intro l hl T hTl hi
    refine hT l hl _ (List.mem_map_of_mem hTl) ?_
    rw [netIds, List.mem_append]
    rcases ho2.bwdIds_mem hi with ⟨m', hm', hi'⟩ | ⟨l', hl', hi'⟩
    · rcases hm' with hm' | hm'
      · exact .inl (List.mem_flatMap.2 ⟨m', hm', gradIds_subset hi'⟩)
      · obtain ⟨l2, hl2, rfl⟩ := List.mem_map.1 hm'
        exact .inr (List.mem_flatMap.2 ⟨l2, hl2, List.mem_append_left _ (gradIds_subset hi')⟩)
    · exact .inr (List.mem_flatMap.2 ⟨l', hl', List.mem_append_right _ hi'⟩)

/-- Gradients of outputs of the second part and its temporary tensors are not changed by backward propagation of the first part. -/
theorem bwd_frame' {given : List Moments} {a b : List NetLayer} (hc : ∀ l ∈ b, l.Correct) (ho : Ordered given a) (hn : (netIds given (a ++ b)).Nodup) :
    ∀ l ∈ b, l.out.grad.id ∉ bwdIds a ∧ ∀ T ∈ l.temps, T.id ∉ bwdIds a := by
  obtain ⟨hB, hT⟩ := netIds_append_right hn
  rw [netIds, List.nodup_append] at hB
  have key : ∀ l ∈ b, ∀ i ∈ l.out.ids ++ l.temps.map Tensor.id, i ∉ bwdIds a := by
    intro l hl i hi hj
    have hib : i ∈ b.flatMap (fun l => l.out.ids ++ l.temps.map Tensor.id) := List.mem_flatMap.2 ⟨l, hl, hi⟩
    rcases ho.bwdIds_mem hj with ⟨m', hm', hi'⟩ | ⟨l', hl', hi'⟩
    · exact hB.2.2 i (List.mem_flatMap.2 ⟨m', List.mem_append.2 hm', gradIds_subset hi'⟩) i hib rfl
    · exact hT l' hl' i hi' (by rw [netIds]; exact List.mem_append_right _ hib)
  intro l hl
  refine ⟨key l hl _ (List.mem_append_left _ ?_), fun T hT => key l hl _ (List.mem_append_right _ (List.mem_map_of_mem hT))⟩
  simp [Moments.ids, Moments.gradIds, (hc l hl).required]

/-- The chain rule. -/
theorem IsNetVJP.append {given : List Moments} {a b : List NetLayer} {env dy g1 g2 : Env} (hc : ∀ l ∈ a ++ b, l.Correct) (ho : Ordered given (a ++ b))
    (hn : (netIds given (a ++ b)).Nodup) (h2 : IsNetVJP (given ++ a.map NetLayer.out) b (netEnv env a) dy g1)
    (h1 : IsNetVJP given a env (fun i J => dy i J + g1 i J) g2) : IsNetVJP given (a ++ b) env dy (fun i J => g1 i J + g2 i J) := by
  classical
  intro c h hcv
  have hA := netIds_append_left hn
  have hB := (netIds_append_right hn).1
  have hoA := ((Ordered_append a b given).1 ho).1
  obtain ⟨D1, hD1, hS1⟩ := h1 c h hcv
  have hall := (netIds_allMoments hA).1
  have hav := values_nodup hall
  rw [List.map_append, List.nodup_append] at hav
  have hgo : ∀ m ∈ given, m.value.id ∉ a.map (fun l => l.out.value.id) := by
    intro m hm hi
    obtain ⟨l, hl, e⟩ := List.mem_map.1 hi
    exact hav.2.2 _ (List.mem_map.2 ⟨m, hm, rfl⟩) _ (List.mem_map.2 ⟨l.out, List.mem_map_of_mem hl, rfl⟩) e.symm
  have hcv2 : CurveAt (given ++ a.map NetLayer.out) (netEnv env a) (fun t => netEnv (c t) a)
      (fun i => if i ∈ a.map (fun l => l.out.value.id) then D1 i else h i) := by
    intro m hm
    rcases List.mem_append.1 hm with hg | hg
    · simp only [if_neg (hgo m hg), netEnv_given hA _ hg]
      exact hcv m hg
    · obtain ⟨l, hl, rfl⟩ := List.mem_map.1 hg
      have hin : l.out.value.id ∈ a.map (fun l => l.out.value.id) := List.mem_map.2 ⟨l, hl, rfl⟩
      simp only [if_pos hin]
      refine ⟨netEnv_congr a given _ _ (fun l hl => hc l (List.mem_append_left _ hl)) hoA (fun m hm => (hcv m hm).1) _ hm, fun _ J hJ => hD1 l hl J hJ, fun hf => ?_⟩
      rw [(hc l (List.mem_append_left _ hl)).required] at hf
      cases hf
  obtain ⟨D2, hD2, hS2⟩ := h2 _ _ hcv2
  have hallB := values_nodup (netIds_allMoments hB).1
  rw [List.map_append, List.nodup_append] at hallB
  have hab : ∀ l ∈ a, l.out.value.id ∉ b.map (fun l => l.out.value.id) := by
    intro l hl hi
    obtain ⟨l', hl', e⟩ := List.mem_map.1 hi
    exact hallB.2.2 _ (List.mem_map.2 ⟨l.out, List.mem_append_right _ (List.mem_map_of_mem hl), rfl⟩) _ (List.mem_map.2 ⟨l'.out, List.mem_map_of_mem hl', rfl⟩) e.symm
  refine ⟨fun i => if i ∈ b.map (fun l => l.out.value.id) then D2 i else D1 i, ?_, ?_⟩
  · intro l hl I hI
    simp only [netEnv_append]
    rcases List.mem_append.1 hl with hl | hl
    · simp only [if_neg (hab l hl)]
      have : ∀ t, netEnv (netEnv (c t) a) b l.out.value.id = netEnv (c t) a l.out.value.id := fun t =>
        netEnv_given hB _ (List.mem_append_right _ (List.mem_map_of_mem hl))
      simp only [this]
      exact hD1 l hl I hI
    · have hin : l.out.value.id ∈ b.map (fun l => l.out.value.id) := List.mem_map.2 ⟨l, hl, rfl⟩
      simp only [if_pos hin]
      exact hD2 l hl I hI
  · rw [List.map_append, List.sum_append]
    have e1 : (a.map fun l => ∑ I ∈ box l.out.value.shape, dy l.out.value.id I *
        (if l.out.value.id ∈ b.map (fun l => l.out.value.id) then D2 l.out.value.id else D1 l.out.value.id) I).sum =
        (a.map fun l => ∑ I ∈ box l.out.value.shape, dy l.out.value.id I * D1 l.out.value.id I).sum := by
      congr 1
      exact List.map_congr_left fun l hl => by simp only [if_neg (hab l hl)]
    have e2 : (b.map fun l => ∑ I ∈ box l.out.value.shape, dy l.out.value.id I *
        (if l.out.value.id ∈ b.map (fun l => l.out.value.id) then D2 l.out.value.id else D1 l.out.value.id) I).sum =
        (b.map fun l => ∑ I ∈ box l.out.value.shape, dy l.out.value.id I * D2 l.out.value.id I).sum := by
      congr 1
      refine List.map_congr_left fun l hl => ?_
      have hin : l.out.value.id ∈ b.map (fun l => l.out.value.id) := List.mem_map.2 ⟨l, hl, rfl⟩
      simp only [if_pos hin]
    have e3 : dotGrads (given ++ a.map NetLayer.out) g1 (fun i => if i ∈ a.map (fun l => l.out.value.id) then D1 i else h i) =
        dotGrads given g1 h + (a.map fun l => ∑ I ∈ box l.out.value.shape, g1 l.out.value.id I * D1 l.out.value.id I).sum := by
      rw [dotGrads, List.map_append, List.sum_append]
      congr 1
      · show dotGrads given g1 (fun i => if i ∈ a.map (fun l => l.out.value.id) then D1 i else h i) = dotGrads given g1 h
        exact dotGrads_congr (fun _ _ => rfl) fun m hm => by simp only [if_neg (hgo m hm)]
      · rw [List.map_map]
        congr 1
        refine List.map_congr_left fun l hl => ?_
        have hin : l.out.value.id ∈ a.map (fun l => l.out.value.id) := List.mem_map.2 ⟨l, hl, rfl⟩
        simp only [Function.comp, if_pos (hc l (List.mem_append_left _ hl)).required, if_pos hin]
    have e4 : (a.map fun l => ∑ I ∈ box l.out.value.shape, (dy l.out.value.id I + g1 l.out.value.id I) * D1 l.out.value.id I).sum =
        (a.map fun l => ∑ I ∈ box l.out.value.shape, dy l.out.value.id I * D1 l.out.value.id I).sum +
        (a.map fun l => ∑ I ∈ box l.out.value.shape, g1 l.out.value.id I * D1 l.out.value.id I).sum := by
      rw [← List.sum_map_add]
      congr 1
      exact List.map_congr_left fun l _ => by rw [← Finset.sum_add_distrib]; exact Finset.sum_congr rfl fun I _ => by ring
    rw [e1, e2, hS2, e3, dotGrads_add, ← hS1, e4]
    ring

/-- Two segments one after another. -/
theorem SegBack.append {Z1 Z2 : List Tensor} {given : List Moments} {a b : List NetLayer} {b1 b2 : M (List (Task1 ℝ))} (hc : ∀ l ∈ a ++ b, l.Correct)
    (ho : Ordered given (a ++ b)) (hn : (netIds given (a ++ b)).Nodup) (h1 : SegBack Z1 given a b1) (h2 : SegBack Z2 (given ++ a.map NetLayer.out) b b2)
    (hz : ∀ T ∈ Z1, T.id ∉ bwdIds b) : SegBack (Z1 ++ Z2) given (a ++ b) (seqAsync [b2, b1]) := by
  intro s env G0 hv hs hr hg hzero
  rw [netEnv_append] at hv hs
  rw [NetRegular_append] at hr
  have hA := netIds_append_left hn
  have hB := (netIds_append_right hn).1
  have hoAB := (Ordered_append a b given).1 ho
  obtain ⟨fr1, fr2⟩ := bwd_frame ho hn
  have fr3 := bwd_frame' (fun l hl => hc l (List.mem_append_right _ hl)) hoAB.1 hn
  have hsub : ∀ i, i ∈ bwdIds b ++ (bwdIds a ++ []) → i ∈ bwdIds (a ++ b) := by
    intro i hi
    simp only [bwdIds, List.flatMap_append, List.mem_append, List.append_nil] at hi ⊢
    tauto
  refine Runs.cons' (ids := bwdIds (a ++ b)) (h2 s (netEnv env a) G0 (fun l hl => hv l (List.mem_append_right _ hl)) (fun l hl => hs l (List.mem_append_right _ hl)) hr.2
    (by rw [List.append_assoc, ← List.map_append]; exact hg) fun T hT => hzero T (List.mem_append_right _ hT)) (fun i hi => hsub i (List.mem_append_left _ hi)) ?_
  rintro s1 c1 ⟨q1, g1, hg1, hvjp1⟩
  have hval : ∀ l ∈ a, ValuesHold l.ins s1 (netEnv env a) := by
    intro l hl m hm
    have hm' := hoAB.1.ins_mem l hl m hm
    have := hv l (List.mem_append_left _ hl) m hm
    rw [netEnv_given hB _ hm'] at this
    exact ⟨c1.ready this.1 (fr1 m hm'), c1.holds this.2 (fr1 m hm')⟩
  have hsav : ∀ l ∈ a, l.Saved (netEnv env a) s1 ∧ AllReady l.temps s1 := by
    intro l hl
    have hcl := hc l (List.mem_append_left _ hl)
    have := hs l (List.mem_append_left _ hl)
    refine ⟨hcl.localS _ _ (fun m hm => ?_) _ (hcl.keep _ _ _ _ c1 (fr2 l hl) this.1), this.2.changed c1 (fr2 l hl)⟩
    exact netEnv_given hB _ (hoAB.1.ins_mem l hl m hm)
  refine Runs.cons' (ids := bwdIds (a ++ b)) (h1 s1 env _ hval hsav hr.1 hg1 fun T hT => c1.holds (hzero T (List.mem_append_left _ hT)) (hz T hT))
    (fun i hi => hsub i (List.mem_append_right _ (by simpa using hi))) ?_
  rintro s2 c2 ⟨q2, g2, hg2, hvjp2⟩
  refine Runs.nil ⟨?_, fun i J => g1 i J + g2 i J, ?_, hvjp1.append hc ho hn hvjp2⟩
  · intro l hl
    rcases List.mem_append.1 hl with hl | hl
    · exact q2 l hl
    · exact ⟨(q1 l hl).1.changed c2 (fr3 l hl).2, c2.ready (q1 l hl).2 (fr3 l hl).1⟩
  · simpa only [add_assoc] using hg2

/-- Ordinary backward propagation. -/
theorem segBack_net {given : List Moments} {ls : List NetLayer} (hc : ∀ l ∈ ls, l.Correct) (ho : Ordered given ls) (hn : (netIds given ls).Nodup) :
    SegBack [] given ls (netBackward ls) :=
  fun s env G0 hv hs hr hg _ => net_backward_ins ls given s env G0 hc ho hn hv hs hr hg

end NNTile
