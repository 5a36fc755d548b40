import Verif.Lib.Unregister
/-!
# Lemmas for C79: the model `MlpMixer`
-/
namespace NNTile
variable {α : Type}

theorem Own.append {ts ts' : List Tensor} {s s' : List Nat} {a b c : Nat} (h : Own ts s a b) (h' : Own ts' s' b c) (hab : a ≤ b) (hbc : b ≤ c) : Own (ts ++ ts') (s ++ s') a c := by
  refine ⟨fun i h1 h2 h3 => ?_, fun T hT => ?_⟩
  · simp only [List.mem_append, not_or] at h3
    by_cases k : i < b
    · obtain ⟨T, hT, e⟩ := h.1 i h1 k h3.1
      exact ⟨T, List.mem_append_left _ hT, e⟩
    · obtain ⟨T, hT, e⟩ := h'.1 i (by omega) h2 h3.2
      exact ⟨T, List.mem_append_right _ hT, e⟩
  · rcases List.mem_append.1 hT with hT | hT
    · have := h.2 T hT
      exact ⟨this.1, by omega⟩
    · have := h'.2 T hT
      exact ⟨by omega, this.2⟩

/-- Only which tensors and numbers occur matters. -/
theorem Own.congr {ts ts' : List Tensor} {s s' : List Nat} {a b : Nat} (h : Own ts s a b) (h1 : ∀ T, T ∈ ts ↔ T ∈ ts') (h2 : ∀ i ∈ s, i ∈ s') : Own ts' s' a b :=
  ⟨fun i ha hb hs => (h.1 i ha hb fun c => hs (h2 i c)).imp fun T hT => ⟨(h1 T).1 hT.1, hT.2⟩, fun T hT => h.2 T ((h1 T).2 hT)⟩

theorem GapLayer.own {x : Moments} {next : Nat} {l : GapLayer} (h : GapLayer.generate x next = .ok l) :
    Own ((MixLayer.gap (α := α) l).unregister ++ l.y.unregister) [] next (next + 4) := by
  simp only [GapLayer.generate, M.bind_eq_ok] at h
  obtain ⟨wv, hwv, wg, hwg, yv, hyv, yg, hyg, h⟩ := h
  have e := Except.ok.inj h
  subst e
  refine Own.of_ids (ids := [next, next + 1, next + 2, next + 3]) ?_ ?_ ?_
  · simp [MixLayer.unregister, Moments.unregister, newTensor_id hyv, newTensor_id hyg, newTensor_id hwv, newTensor_id hwg]
  · intro i ha hb _
    simp
    omega
  · intro i hi
    simp at hi
    omega

theorem MixerMlp.own {x : Moments} {side : Side} {next : Nat} {l : MixerMlp} (h : MixerMlp.generate x side next = .ok l) :
    Own l.unregister (l.linear1.unused ++ l.linear2.unused) next (next + 14) ∧ l.y = l.linear2.y := by
  simp only [MixerMlp.generate, M.bind_eq_ok] at h
  obtain ⟨_, _, l1, h1, act, h2, l2, h3, h⟩ := h
  have e := Except.ok.inj h
  subst e
  have o := ((Linear.own (α := Unit) h1).append (Act.own (α := Unit) h2) (by omega) (by omega)).append (Linear.own (α := Unit) h3) (by omega) (by omega)
  refine ⟨o.congr (fun T => ?_) (fun i hi => ?_), rfl⟩
  · simp only [PyLayer.unregister, PyLayer.parameters, PyLayer.unregisterTemporaries, MixerMlp.unregister, MixerMlp.parameters, MixerMlp.temporaries, List.flatMap_append, List.flatMap_cons,
      List.flatMap_nil, List.append_nil, List.mem_append, List.nil_append]
    tauto
  · simpa using hi

theorem MixerLayer.own [FP α] {x : Moments} {next : Nat} {r : MixerLayer α × List (Task1 α)} (h : MixerLayer.generate x next = .ok r) :
    Own ((MixLayer.mixer r.1).unregister ++ r.1.y.unregister) (MixLayer.mixer r.1).unused next (next + 48) := by
  simp only [MixerLayer.generate, M.bind_eq_ok] at h
  obtain ⟨r1, h1, m1, h2, r2, h3, m2, h4, h⟩ := h
  have e := Except.ok.inj h
  subst e
  obtain ⟨o2, y2⟩ := MixerMlp.own h2
  obtain ⟨o4, y4⟩ := MixerMlp.own h4
  have o := (((LayerNorm.own h1).append o2 (by omega) (by omega)).append (LayerNorm.own h3) (by omega) (by omega)).append o4 (by omega) (by omega)
  refine o.congr (fun T => ?_) (fun i hi => ?_)
  · simp only [MixLayer.unregister, MixerLayer.unregister, MixerLayer.parameters, MixerLayer.temporaries, PyLayer.unregister, PyLayer.parameters, PyLayer.unregisterTemporaries, MixerMlp.unregister,
      List.flatMap_append, List.flatMap_cons, List.flatMap_nil, List.append_nil, List.mem_append, y4]
    have c : T ∈ m2.linear2.y.unregister → T ∈ m2.temporaries.flatMap Moments.unregister := by
      intro c
      simp [MixerMlp.temporaries, c]
    tauto
  · simpa [MixLayer.unused] using hi

/-- As `Track`, for `MlpMixer`. -/
structure MixTrack (given : List Moments) (first : Nat) (acts : List Moments) (layers : List (MixLayer α)) (next : Nat) : Prop where
  le : first ≤ next
  inputs : ∀ m ∈ given, m ∈ acts
  made : ∀ i, first ≤ i → i < next → i ∉ layers.flatMap MixLayer.unused → ∃ T ∈ layers.flatMap MixLayer.unregister ++ acts.flatMap Moments.unregister, T.id = i
  only : ∀ T ∈ layers.flatMap MixLayer.unregister ++ acts.flatMap Moments.unregister, T ∈ given.flatMap Moments.unregister ∨ first ≤ T.id ∧ T.id < next

theorem MixTrack.start (given : List Moments) (first : Nat) (α : Type) : MixTrack (α := α) given first given [] first :=
  ⟨le_refl _, fun _ h => h, fun i h1 h2 => absurd h2 (by simpa using h1), fun T h => .inl (by simpa using h)⟩

theorem MixTrack.snoc {given acts : List Moments} {first next k : Nat} {layers : List (MixLayer α)} (h : MixTrack given first acts layers next) {l : MixLayer α} {y : Moments}
    (ho : Own (l.unregister ++ y.unregister) l.unused next (next + k)) : MixTrack given first (acts ++ [y]) (layers ++ [l]) (next + k) := by
  refine ⟨h.le.trans (Nat.le_add_right _ _), fun m hm => List.mem_append_left _ (h.inputs m hm), fun i h1 h2 h3 => ?_, fun T hT => ?_⟩
  · simp only [List.flatMap_append, List.flatMap_cons, List.flatMap_nil, List.append_nil, List.mem_append, not_or] at h3 ⊢
    by_cases c : i < next
    · obtain ⟨T, hT, e⟩ := h.made i h1 c h3.1
      refine ⟨T, ?_, e⟩
      rcases List.mem_append.1 hT with hT | hT
      · exact .inl (.inl hT)
      · exact .inr (.inl hT)
    · obtain ⟨T, hT, e⟩ := ho.1 i (by omega) h2 h3.2
      refine ⟨T, ?_, e⟩
      rcases List.mem_append.1 hT with hT | hT
      · exact .inl (.inr hT)
      · exact .inr (.inr hT)
  · simp only [List.flatMap_append, List.flatMap_cons, List.flatMap_nil, List.append_nil, List.mem_append] at hT
    have hold : T ∈ layers.flatMap MixLayer.unregister ++ acts.flatMap Moments.unregister ∨ T ∈ l.unregister ++ y.unregister := by
      simp only [List.mem_append]
      tauto
    have := h.le
    rcases hold with hT | hT
    · rcases h.only T hT with c | c
      · exact .inl c
      · exact .inr ⟨c.1, by omega⟩
    · have := ho.2 T hT
      exact .inr ⟨by omega, this.2⟩

theorem MixTrack.mixers [FP α] {given : List Moments} {first : Nat} : ∀ {n : Nat} {b b' : MixBuilder α}, MixTrack given first b.acts b.layers b.next → MixBuilder.mixers n b = .ok b' →
    MixTrack given first b'.acts b'.layers b'.next
  | 0, _, _, h, e => by
    have e := Except.ok.inj e
    subst e
    exact h
  | n + 1, b, b', h, e => by
    rw [MixBuilder.mixers, M.bind_eq_ok] at e
    obtain ⟨b1, e1, e⟩ := e
    refine MixTrack.mixers ?_ e
    simp only [MixBuilder.mixer, M.bind_eq_ok] at e1
    obtain ⟨_, _, r, hr, e1⟩ := e1
    have e1 := Except.ok.inj e1
    subst e1
    exact h.snoc (l := .mixer r.1) (MixerLayer.own hr)

end NNTile
