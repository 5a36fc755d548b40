import Verif.Lib.MixerModel
import Verif.Props.C37
/-!
# Gradients computed by segments; clearing of gradients
-/
namespace NNTile
open Finset

/-- The curve which moves one element. -/
theorem shift_curve' {given : List Moments} (hn : (given.map fun m => m.value.id).Nodup) {env : Env} {m : Moments} (hm : m ∈ given) (hr : m.gradRequired = true)
    (J : List Nat) : CurveAt given env (fun t => env.shift m.value.id J t) (fun i K => if i = m.value.id ∧ K = J then 1 else 0) := by
  intro m' hm'
  by_cases e : m'.value.id = m.value.id
  · have := List.inj_on_of_nodup_map hn hm' hm e
    subst this
    refine ⟨by simp [Env.shift], fun _ K _ => ?_, fun hf => by rw [hr] at hf; cases hf⟩
    by_cases hK : K = J
    · subst hK
      simpa [Env.shift] using (hasDerivAt_id (0 : ℝ)).const_add (env m'.value.id K)
    · simpa [Env.shift, hK] using hasDerivAt_const (0 : ℝ) (env m'.value.id K)
  · refine ⟨by simp [Env.shift, e], fun _ K _ => ?_, fun _ t => by simp [Env.shift, e]⟩
    simpa [Env.shift, e] using hasDerivAt_const (0 : ℝ) (env m'.value.id K)

/-- What backward propagation of a segment adds if the gradients of all outputs but one are zero. -/
theorem segBack_gradient {Z : List Tensor} {given : List Moments} {net : List NetLayer} {back : M (List (Task1 ℝ))} (h : SegBack Z given net back) (ho : Ordered given net)
    (hn : (netIds given net).Nodup) {s : Store ℝ} {env : Env} (hp : Propagated given net env s) (hreg : NetRegular env net) {out : NetLayer} (hout : out ∈ net) {dy : List Nat → ℝ}
    (hdy : out.out.grad.Ready s ∧ out.out.grad.Holds s dy) (hzero : ∀ l ∈ net, l.out.value.id ≠ out.out.value.id → l.out.grad.Ready s ∧ l.out.grad.Holds s (fun _ => 0))
    (hZ : ∀ T ∈ Z, T.Holds s (fun _ => 0)) {G : Env} (hG : GradsHold given s G) :
    Runs back s (bwdIds net) (fun s' => (∀ l ∈ net, AllReady l.temps s' ∧ l.out.grad.Ready s') ∧
      ∃ g : Env, GradsHold given s' (fun i J => G i J + g i J) ∧ ∀ m ∈ given, m.gradRequired = true → ∀ J ∈ box m.value.shape,
        ∃ D : List Nat → ℝ, (∀ I ∈ box out.out.value.shape, HasDerivAt (fun t => netEnv (env.shift m.value.id J t) net out.out.value.id I) (D I) 0) ∧
          g m.value.id J = ∑ I ∈ box out.out.value.shape, dy I * D I) := by
  classical
  have hall := (netIds_allMoments hn).1
  have hgn : (given.flatMap Moments.ids).Nodup := by
    rw [List.flatMap_append, List.nodup_append] at hall
    exact hall.1
  have hvn := values_nodup hgn
  have hav := values_nodup hall
  rw [List.map_append, List.nodup_append] at hav
  have hon : (net.map fun l => l.out.value.id).Nodup := by
    have := hav.2.1
    rw [List.map_map] at this
    exact this
  have hgo : ∀ m ∈ given, ∀ l ∈ net, m.value.id ≠ l.out.value.id := by
    intro m hm l hl e
    exact hav.2.2 _ (List.mem_map.2 ⟨m, hm, rfl⟩) _ (List.mem_map.2 ⟨l.out, List.mem_map_of_mem hl, rfl⟩) e
  let G' : Env := fun i => if i = out.out.value.id then dy else if i ∈ net.map (fun l => l.out.value.id) then fun _ => 0 else G i
  have hG' : GradsHold (given ++ net.map NetLayer.out) s G' := by
    intro m hm hr
    rcases List.mem_append.1 hm with hm | hm
    · have e1 : m.value.id ≠ out.out.value.id := hgo m hm out hout
      have e2 : m.value.id ∉ net.map (fun l => l.out.value.id) := by
        intro hi
        obtain ⟨l, hl, e⟩ := List.mem_map.1 hi
        exact hgo m hm l hl e.symm
      simp only [G', if_neg e1, if_neg e2]
      exact hG m hm hr
    · obtain ⟨l, hl, rfl⟩ := List.mem_map.1 hm
      by_cases e : l.out.value.id = out.out.value.id
      · have : l = out := List.inj_on_of_nodup_map hon hl hout e
        subst this
        simp only [G', if_true]
        exact hdy
      · simp only [G', if_neg e, if_pos (List.mem_map.2 ⟨l, hl, rfl⟩ : l.out.value.id ∈ net.map (fun l => l.out.value.id))]
        exact hzero l hl e
  refine (h s env G' (fun l hl m hm => hp.1 m (ho.ins_mem l hl m hm)) hp.2 hreg hG' hZ).imp (fun _ h => h) ?_
  rintro s' _ ⟨hrd, g, h1, h2⟩
  refine ⟨hrd, g, ?_, ?_⟩
  · intro m hm
    have e1 : m.value.id ≠ out.out.value.id := hgo m hm out hout
    have e2 : m.value.id ∉ net.map (fun l => l.out.value.id) := by
      intro hi
      obtain ⟨l, hl, e⟩ := List.mem_map.1 hi
      exact hgo m hm l hl e.symm
    have := h1 m hm
    simp only [G', if_neg e1, if_neg e2] at this
    exact this
  · intro m hm hr J hJ
    obtain ⟨D, hD, hs⟩ := h2 _ _ (shift_curve' hvn hm hr J)
    refine ⟨D out.out.value.id, hD out hout, ?_⟩
    have e1 : (net.map fun l => ∑ I ∈ box l.out.value.shape, G' l.out.value.id I * D l.out.value.id I).sum =
        ∑ I ∈ box out.out.value.shape, dy I * D out.out.value.id I := by
      have hsing : ∀ L : List NetLayer, (L.map fun l => l.out.value.id).Nodup → (∀ l ∈ L, l ∈ net) → out ∈ L →
          (L.map fun l => ∑ I ∈ box l.out.value.shape, G' l.out.value.id I * D l.out.value.id I).sum =
          ∑ I ∈ box out.out.value.shape, dy I * D out.out.value.id I := by
        intro L
        induction L with
        | nil => simp
        | cons l L ih =>
          intro hL hsub ho
          rw [List.map_cons, List.nodup_cons] at hL
          rw [List.map_cons, List.sum_cons]
          have hz : ∀ l' ∈ net, l'.out.value.id ≠ out.out.value.id → ∑ I ∈ box l'.out.value.shape, G' l'.out.value.id I * D l'.out.value.id I = 0 := by
            intro l' hl' e
            refine sum_eq_zero fun I _ => ?_
            simp only [G', if_neg e, if_pos (List.mem_map.2 ⟨l', hl', rfl⟩ : l'.out.value.id ∈ net.map (fun l => l.out.value.id)), zero_mul]
          rcases List.mem_cons.1 ho with rfl | ho
          · rw [sum_map_zero_of, add_zero]
            · simp only [G', if_true]
            · intro l' hl'
              refine hz l' (hsub l' (by simp [hl'])) fun e => hL.1 (List.mem_map.2 ⟨l', hl', e⟩)
          · rw [hz l (hsub l (by simp)) (fun e => hL.1 (List.mem_map.2 ⟨out, ho, e.symm⟩)), zero_add]
            exact ih hL.2 (fun l' hl' => hsub l' (by simp [hl'])) ho
      exact hsing net hon (fun l hl => hl) hout
    rw [← e1, hs, dotGrads, sum_map_single hvn hm, if_pos hr]
    · simp only [true_and, mul_ite, mul_one, mul_zero, sum_ite_eq', hJ, if_true]
    · intro m' _ e
      simp [e]


/-- All tensors of a network can be registered at the same time, with any contents. -/
theorem net_registered {given : List Moments} {net : List NetLayer} (h : (netIds given net).Nodup) (hwf : ∀ m ∈ given ++ net.map NetLayer.out, m.Usable) (ht : ∀ l ∈ net, ∀ T ∈ l.temps, T.WF)
    (env G : Env) : ∃ s : Store ℝ, NetReady given net s ∧ (∀ m ∈ given, m.value.Holds s (env m.value.id)) ∧ GradsHold (given ++ net.map NetLayer.out) s G := by
  let f : Moments → List (Tensor × (List Nat → ℝ)) := fun m => (m.value, env m.value.id) :: if m.gradRequired then [(m.grad, G m.value.id)] else []
  let L : List (Tensor × (List Nat → ℝ)) := given.flatMap f ++ net.flatMap fun l => f l.out ++ l.temps.map fun T => (T, fun _ => (0 : ℝ))
  have hf : ∀ m, (f m).map (fun p => p.1.id) = m.ids := by
    intro m
    simp only [f, Moments.ids, Moments.gradIds]
    cases m.gradRequired <;> rfl
  have hids : L.map (fun p => p.1.id) = netIds given net := by
    simp only [L, netIds, List.map_append, List.map_flatMap, hf, List.map_map]
    rfl
  have hfw : ∀ m ∈ given ++ net.map NetLayer.out, ∀ p ∈ f m, p.1.WF := by
    intro m hm p hp
    obtain ⟨h1, h2, h3⟩ := hwf m hm
    simp only [f, List.mem_cons] at hp
    rcases hp with rfl | hp
    · exact h1
    · by_cases hr : m.gradRequired = true
      · rw [if_pos hr, List.mem_singleton] at hp
        subst hp
        show m.grad.WF
        rw [Tensor.WF, h2, h3]
        exact h1
      · rw [if_neg hr] at hp
        cases hp
  have hs := storeOf_spec L (by
    intro p hp
    rcases List.mem_append.1 hp with hp | hp
    · obtain ⟨m, hm, hp⟩ := List.mem_flatMap.1 hp
      exact hfw m (List.mem_append_left _ hm) p hp
    · obtain ⟨l, hl, hp⟩ := List.mem_flatMap.1 hp
      rcases List.mem_append.1 hp with hp | hp
      · exact hfw l.out (List.mem_append_right _ (List.mem_map_of_mem hl)) p hp
      · obtain ⟨T, hT, rfl⟩ := List.mem_map.1 hp
        exact ht l hl T hT) (by rw [hids]; exact h)
  have hm : ∀ m ∈ given ++ net.map NetLayer.out, ∀ p ∈ f m, p ∈ L := by
    intro m hm p hp
    rcases List.mem_append.1 hm with hm | hm
    · exact List.mem_append_left _ (List.mem_flatMap.2 ⟨m, hm, hp⟩)
    · obtain ⟨l, hl, rfl⟩ := List.mem_map.1 hm
      exact List.mem_append_right _ (List.mem_flatMap.2 ⟨l, hl, List.mem_append_left _ hp⟩)
  refine ⟨storeOf L, ⟨fun m hm' => ⟨?_, fun hr => ?_⟩, fun l hl T hT => ?_⟩, fun m hm' => ?_, fun m hm' hr => ?_⟩
  · exact (hs (m.value, env m.value.id) (hm m hm' _ (by simp [f]))).1
  · exact (hs (m.grad, G m.value.id) (hm m hm' _ (by simp [f, hr]))).1
  · exact (hs (T, fun _ => 0) (List.mem_append_right _ (List.mem_flatMap.2 ⟨l, hl, List.mem_append_right _ (List.mem_map_of_mem hT)⟩))).1
  · exact (hs (m.value, env m.value.id) (hm m (List.mem_append_left _ hm') _ (by simp [f]))).2
  · exact hs (m.grad, G m.value.id) (hm m hm' _ (by simp [f, hr]))


/-! ### Clearing -/

/-- Temporary tensors are different. -/
theorem temps_inj {given : List Moments} {net : List NetLayer} (h : (netIds given net).Nodup) {l l' : NetLayer} (hl : l ∈ net) (hl' : l' ∈ net) {T T' : Tensor} (hT : T ∈ l.temps) (hT' : T' ∈ l'.temps)
    (e : T.id = T'.id) : T = T' := by
  have hsub : ((net.flatMap NetLayer.temps).map Tensor.id).Sublist (net.flatMap fun l => l.out.ids ++ l.temps.map Tensor.id) := by
    clear h hl hl'
    induction net with
    | nil => simp
    | cons a net ih =>
      rw [List.flatMap_cons, List.flatMap_cons, List.map_append]
      exact (List.sublist_append_right _ _).append ih
  rw [netIds, List.nodup_append] at h
  exact List.inj_on_of_nodup_map (h.2.1.sublist hsub) (List.mem_flatMap.2 ⟨l, hl, hT⟩) (List.mem_flatMap.2 ⟨l', hl', hT'⟩) e

theorem clearGrads_append {α : Type} [FP α] (a b : List Moments) : clearGrads (α := α) (a ++ b) = seqAsync [clearGrads a, clearGrads b] := by
  unfold clearGrads
  rw [List.map_append, seqAsync_append]

theorem clearGrads_flatMap {α β : Type} [FP α] (f : β → List Moments) (ls : List β) : seqAsync (ls.map fun l => clearGrads (α := α) (f l)) = clearGrads (ls.flatMap f) := by
  induction ls with
  | nil => rfl
  | cons l ls ih => rw [List.map_cons, List.flatMap_cons, clearGrads_append, seqAsync_cons, ih]

/-- Clearing of gradients, tensors may be repeated. -/
theorem clearGrads_runs {U : List Moments} (hinj : ∀ m ∈ U, ∀ m' ∈ U, m.gradRequired = true → m'.gradRequired = true → m.grad.id = m'.grad.id → m = m') (ts : List Moments) : (∀ m ∈ ts, m ∈ U) →
    ∀ s : Store ℝ, (∀ m ∈ U, m.gradRequired = true → m.grad.Ready s) → Runs (clearGrads ts) s (ts.flatMap Moments.gradIds) (fun s' => (∀ m ∈ U, m.gradRequired = true → m.grad.Ready s') ∧
      ∀ m ∈ U, m.gradRequired = true → (m ∈ ts ∨ m.grad.Holds s (fun _ => 0)) → m.grad.Holds s' (fun _ => 0)) := by
  induction ts with
  | nil =>
    intro _ s hr
    exact Runs.nil ⟨hr, fun m _ _ h => h.resolve_left (by simp)⟩
  | cons a ts ih =>
    intro hU s hr
    have ha : a ∈ U := hU a (by simp)
    have h1 : Runs (whenAsync (α := ℝ) a.gradRequired (clearAsync a.grad)) s a.gradIds (fun s' => a.GradHolds s' (fun _ => 0)) := Moments.when_runs fun h => C11_clear (hr a ha h)
    show Runs (seqAsync (whenAsync a.gradRequired (clearAsync a.grad) :: _)) s _ _
    refine h1.cons' (fun i hi => by simp [hi]) fun s1 c1 q1 => ?_
    have hid : ∀ m ∈ U, m.gradRequired = true → m ≠ a → m.grad.id ∉ a.gradIds := by
      intro m hm hm' hne hi
      by_cases e : a.gradRequired = true
      · rw [Moments.gradIds, if_pos e, List.mem_singleton] at hi
        exact hne (hinj m hm a ha hm' e hi)
      · rw [Moments.gradIds, if_neg e] at hi
        cases hi
    have hr1 : ∀ m ∈ U, m.gradRequired = true → m.grad.Ready s1 := by
      intro m hm hm'
      by_cases e : m = a
      · subst e
        exact (q1 hm').1
      · exact c1.ready (hr m hm hm') (hid m hm hm' e)
    refine (ih (fun m hm => hU m (by simp [hm])) s1 hr1).imp (fun i hi => by simp [hi]) fun s' c2 h => ⟨h.1, fun m hm hm' hc => h.2 m hm hm' ?_⟩
    by_cases e : m = a
    · subst e
      exact .inr (q1 hm').2
    · rcases hc with hc | hc
      · exact .inl ((List.mem_cons.1 hc).resolve_left e)
      · exact .inr (c1.holds hc (hid m hm hm' e))

end NNTile
