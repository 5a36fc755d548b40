import Verif.Lib.Layer
import Verif.Spec.Unregister
/-!
# Lemmas for C79
-/
namespace NNTile
variable {α : Type}

theorem throwIf_eq_ok {c : Prop} [Decidable c] {m : String} {u : Unit} : throwIf c m = .ok u ↔ ¬ c := by
  by_cases h : c
  · rw [throwIf_pos h]
    exact ⟨(fun e => by cases e), fun e => absurd h e⟩
  · rw [throwIf_neg h]
    exact ⟨fun _ => h, fun _ => rfl⟩

theorem newTensor_id {i : Nat} {S B : List Nat} {T : Tensor} (h : newTensor i S B = .ok T) : T.id = i := by
  rw [newTensor, M.bind_eq_ok] at h
  obtain ⟨_, _, h⟩ := h
  rw [← Except.ok.inj h]

/-- The tensors `ts` are those numbered from `a` to `b - 1`, except `skip`. -/
def Own (ts : List Tensor) (skip : List Nat) (a b : Nat) : Prop :=
  (∀ i, a ≤ i → i < b → i ∉ skip → ∃ T ∈ ts, T.id = i) ∧ ∀ T ∈ ts, a ≤ T.id ∧ T.id < b

theorem Own.of_ids {ts : List Tensor} {skip ids : List Nat} {a b : Nat} (h : ts.map Tensor.id = ids) (h1 : ∀ i, a ≤ i → i < b → i ∉ skip → i ∈ ids) (h2 : ∀ i ∈ ids, a ≤ i ∧ i < b) :
    Own ts skip a b := by
  subst h
  exact ⟨fun i ha hb hs => List.mem_map.1 (h1 i ha hb hs), fun T hT => h2 _ (List.mem_map_of_mem hT)⟩

theorem Linear.own {x : Moments} {side : Side} {tx : TransOp} {n : Int} {S B : List Nat} {next : Nat} {bias redux : Bool} {l : Linear}
    (h : Linear.generate x side tx n S B next bias redux = .ok l) : Own ((PyLayer.linear (α := α) l).unregister ++ l.y.unregister) l.unused next (next + 6) := by
  simp only [Linear.generate, Linear.init, M.bind_eq_ok, throwIf_eq_ok] at h
  obtain ⟨_, _, wv, hwv, wg, hwg, b, hb, yv, hyv, yg, hyg, _, _, h⟩ := h
  have e := Except.ok.inj h
  subst e
  have h1 := newTensor_id hwv
  have h2 := newTensor_id hwg
  have h3 := newTensor_id hyv
  have h4 := newTensor_id hyg
  cases bias
  · have e := Except.ok.inj hb
    subst e
    refine Own.of_ids (ids := [next, next + 1, next + 4, next + 5]) ?_ ?_ ?_
    · simp [PyLayer.unregister, PyLayer.parameters, PyLayer.unregisterTemporaries, Moments.unregister, h1, h2, h3, h4]
    · intro i ha hb hs
      simp [Linear.unused, h1] at hs ⊢
      omega
    · intro i hi
      simp at hi
      omega
  · simp only [if_true, M.bind_eq_ok, throwIf_eq_ok] at hb
    obtain ⟨_, _, bv, hbv, bg, hbg, hb⟩ := hb
    have e := Except.ok.inj hb
    subst e
    have h5 := newTensor_id hbv
    have h6 := newTensor_id hbg
    refine Own.of_ids (ids := [next, next + 1, next + 2, next + 3, next + 4, next + 5]) ?_ ?_ ?_
    · simp [PyLayer.unregister, PyLayer.parameters, PyLayer.unregisterTemporaries, Moments.unregister, h1, h2, h3, h4, h5, h6]
    · intro i ha hb hs
      simp
      omega
    · intro i hi
      simp at hi
      omega

theorem Act.own {x : Moments} {name : String} {next : Nat} {l : Act} (h : Act.generate x name next = .ok l) :
    Own ((PyLayer.act (α := α) l).unregister ++ l.y.unregister) [] next (next + 2) := by
  simp only [Act.generate, M.bind_eq_ok] at h
  obtain ⟨yv, hyv, yg, hyg, k, _, h⟩ := h
  have e := Except.ok.inj h
  subst e
  refine Own.of_ids (ids := [next, next + 1]) ?_ ?_ ?_
  · simp [PyLayer.unregister, PyLayer.parameters, PyLayer.unregisterTemporaries, Moments.unregister, newTensor_id hyv, newTensor_id hyg]
  · intro i ha hb _
    simp
    omega
  · intro i hi
    simp at hi
    omega

theorem AddLayer.own {x y : Moments} {next : Nat} {l : AddLayer} (h : AddLayer.generate x y next = .ok l) :
    Own ((PyLayer.add (α := α) l).unregister ++ l.res.unregister) [] next (next + 2) := by
  simp only [AddLayer.generate, M.bind_eq_ok] at h
  obtain ⟨yv, hyv, yg, hyg, h⟩ := h
  have e := Except.ok.inj h
  subst e
  refine Own.of_ids (ids := [next, next + 1, next, next + 1]) ?_ ?_ ?_
  · simp [PyLayer.unregister, Moments.unregister, newTensor_id hyv, newTensor_id hyg]
  · intro i ha hb _
    simp
    omega
  · intro i hi
    simp at hi
    omega

theorem AddSliceLayer.own {x y : Moments} {axis : Int} {next : Nat} {redux : Bool} {l : AddSliceLayer} (h : AddSliceLayer.generate x y axis next redux = .ok l) :
    Own ((PyLayer.addSlice (α := α) l).unregister ++ l.u.unregister) [] next (next + 2) := by
  simp only [AddSliceLayer.generate, M.bind_eq_ok] at h
  obtain ⟨yv, hyv, yg, hyg, h⟩ := h
  have e := Except.ok.inj h
  subst e
  refine Own.of_ids (ids := [next, next + 1]) ?_ ?_ ?_
  · simp [PyLayer.unregister, PyLayer.parameters, PyLayer.unregisterTemporaries, Moments.unregister, newTensor_id hyv, newTensor_id hyg]
  · intro i ha hb _
    simp
    omega
  · intro i hi
    simp at hi
    omega

theorem EmbeddingLayer.own {x : Tensor} {axis : Int} {v e yt wt next : Nat} {l : EmbeddingLayer} (h : EmbeddingLayer.generate x axis v e yt wt next = .ok l) :
    Own ((PyLayer.embedding (α := α) l).unregister ++ l.y.unregister) [] next (next + 4) := by
  simp only [EmbeddingLayer.generate, M.bind_eq_ok] at h
  obtain ⟨_, _, _, _, wv, hwv, wg, hwg, yv, hyv, yg, hyg, h⟩ := h
  have e := Except.ok.inj h
  subst e
  refine Own.of_ids (ids := [next, next + 1, next + 2, next + 3]) ?_ ?_ ?_
  · simp [PyLayer.unregister, PyLayer.parameters, PyLayer.unregisterTemporaries, Moments.unregister, newTensor_id hyv, newTensor_id hyg, newTensor_id hwv, newTensor_id hwg]
  · intro i ha hb _
    simp
    omega
  · intro i hi
    simp at hi
    omega

theorem LayerNorm.own [FP α] {x : Moments} {axis : Int} {eps : α} {next : Nat} {redux : Bool} {r : LayerNorm α × List (Task1 α)} (h : LayerNorm.generate x axis eps next redux = .ok r) :
    Own ((PyLayer.layerNorm r.1).unregister ++ r.1.y.unregister) [] next (next + 10) := by
  simp only [LayerNorm.generate, LayerNorm.init, M.bind_eq_ok] at h
  obtain ⟨yv, h1, yg, h2, _, _, _, _, gv, h3, gg, h4, bv, h5, bg, h6, tv, h7, tg, h8, _, _, _, _, mn, h9, sd, h10, l, ⟨_, _, hl⟩, _, _, h⟩ := h
  have e := Except.ok.inj h
  subst e
  have e := Except.ok.inj hl
  subst e
  refine Own.of_ids (ids := [next + 2, next + 3, next + 4, next + 5, next + 6, next + 7, next + 8, next + 9, next, next + 1]) ?_ ?_ ?_
  · simp [PyLayer.unregister, PyLayer.parameters, PyLayer.unregisterTemporaries, Moments.unregister, newTensor_id h1, newTensor_id h2, newTensor_id h3, newTensor_id h4, newTensor_id h5, newTensor_id h6,
      newTensor_id h7, newTensor_id h8, newTensor_id h9, newTensor_id h10]
  · intro i ha hb _
    simp
    omega
  · intro i hi
    simp at hi
    omega

theorem newPair_ids {i : Nat} {S B : List Nat} {m : Moments} (h : newPair i S B = .ok m) : m.unregister.map Tensor.id = [i, i + 1] := by
  simp only [newPair, M.bind_eq_ok] at h
  obtain ⟨v, hv, g, hg, h⟩ := h
  have e := Except.ok.inj h
  subst e
  simp [Moments.unregister, newTensor_id hv, newTensor_id hg]

theorem newPairIf_ids {i : Nat} {S B : List Nat} {m : Option Moments} (h : newPairIf true i S B = .ok m) : ∃ m', m = some m' ∧ m'.unregister.map Tensor.id = [i, i + 1] := by
  simp only [newPairIf, if_true, M.bind_eq_ok] at h
  obtain ⟨m', hm, h⟩ := h
  have e := Except.ok.inj h
  subst e
  exact ⟨m', rfl, newPair_ids hm⟩

/-- The numbers of the tensors of an attention layer. -/
def attnIds (n : Nat) : List Nat :=
  [n, n + 1, n + 4, n + 5, n + 8, n + 9, n + 2, n + 3, n + 6, n + 7, n + 10, n + 11, n + 12, n + 13, n + 34, n + 35, n + 14, n + 15, n + 16, n + 17, n + 18, n + 19, n + 20, n + 21, n + 22, n + 23, n + 24, n + 25,
    n + 26, n + 27, n + 28, n + 29, n + 30, n + 31, n + 32, n + 33, n + 36, n + 37]

theorem Attention.generate_ids {xq xk xv : Moments} {nHead nHeadTile next : Nat} {mask : Option Tensor} {val : α} {redux : Bool} {l : Attention α}
    (h : Attention.generate xq xk xv nHead nHeadTile next true mask val redux = .ok l) :
    ((PyLayer.attention l).unregister ++ l.y.unregister).map Tensor.id = attnIds next ∧ ((PyLayer.flash l).unregister ++ l.y.unregister).map Tensor.id = attnIds next := by
  simp only [Attention.generate, Attention.init, M.bind_eq_ok] at h
  obtain ⟨_, _, _, _, _, _, _, _, _, _, _, _, _, _, _, _, _, _, _, _, _, _, wq, h1, bq, h2, wk, h3, bk, h4, wv, h5, bv, h6, w, h7, qT, h8, q, h9, kT, h10, k, h11, vT, h12, v, h13, a, h14, ms, h15, sp, h16, b, h17,
    bT, h18, bo, h19, y, h20, _, _, _, _, _, _, _, _, h⟩ := h
  have e := Except.ok.inj h
  subst e
  obtain ⟨bq', e2, k2⟩ := newPairIf_ids h2
  subst e2
  obtain ⟨bk', e4, k4⟩ := newPairIf_ids h4
  subst e4
  obtain ⟨bv', e6, k6⟩ := newPairIf_ids h6
  subst e6
  obtain ⟨bo', e19, k19⟩ := newPairIf_ids h19
  subst e19
  constructor <;>
  simp [PyLayer.unregister, PyLayer.parameters, PyLayer.unregisterTemporaries, Attention.params, newPair_ids h1, k2, newPair_ids h3, k4, newPair_ids h5, k6, newPair_ids h7,
    newPair_ids h8, newPair_ids h9, newPair_ids h10, newPair_ids h11, newPair_ids h12, newPair_ids h13, newPair_ids h14, newTensor_id h15, newTensor_id h16, newPair_ids h17, newPair_ids h18, k19,
    newPair_ids h20, attnIds]

theorem Own.attn {ts : List Tensor} {n : Nat} (h : ts.map Tensor.id = attnIds n) : Own ts [] n (n + 38) := by
  refine Own.of_ids h ?_ ?_
  · intro i ha hb _
    simp only [attnIds, List.mem_cons, List.not_mem_nil, or_false]
    omega
  · intro i hi
    simp only [attnIds, List.mem_cons, List.not_mem_nil, or_false] at hi
    omega

theorem flashInit_keeps {l l' : Attention α} (h : l.flashInit = .ok l') : (PyLayer.flash l').unregister ++ l'.y.unregister = (PyLayer.flash l).unregister ++ l.y.unregister := by
  simp only [Attention.flashInit, Attention.init, M.bind_eq_ok] at h
  obtain ⟨_, _, _, _, _, _, _, _, _, _, _, _, _, _, h⟩ := h
  have e := Except.ok.inj h
  subst e
  rfl

/-- State of the constructors: all tensors made since `first` are among those the lists give. -/
structure Track (given : List Moments) (first : Nat) (b : Builder α) : Prop where
  le : first ≤ b.next
  inputs : ∀ m ∈ given, m ∈ b.acts
  made : ∀ i, first ≤ i → i < b.next → i ∉ b.layers.flatMap PyLayer.unused → ∃ T ∈ b.layers.flatMap PyLayer.unregister ++ b.acts.flatMap Moments.unregister, T.id = i
  only : ∀ T ∈ b.layers.flatMap PyLayer.unregister ++ b.acts.flatMap Moments.unregister, T ∈ given.flatMap Moments.unregister ∨ first ≤ T.id ∧ T.id < b.next

theorem Track.start (given : List Moments) (first : Nat) (α : Type) : Track (α := α) given first ⟨given, [], first⟩ :=
  ⟨le_refl _, fun _ h => h, fun i h1 h2 => absurd h2 (by simpa using h1), fun T h => .inl (by simpa using h)⟩

theorem Track.snoc {given : List Moments} {first : Nat} {b : Builder α} (h : Track given first b) {l : PyLayer α} {y : Moments} {k : Nat}
    (ho : Own (l.unregister ++ y.unregister) l.unused b.next (b.next + k)) : Track given first ⟨b.acts ++ [y], b.layers ++ [l], b.next + k⟩ := by
  refine ⟨h.le.trans (Nat.le_add_right _ _), fun m hm => List.mem_append_left _ (h.inputs m hm), fun i h1 h2 h3 => ?_, fun T hT => ?_⟩
  · simp only [List.flatMap_append, List.flatMap_cons, List.flatMap_nil, List.append_nil, List.mem_append, not_or] at h3 ⊢
    by_cases c : i < b.next
    · obtain ⟨T, hT, e⟩ := h.made i h1 c h3.1
      refine ⟨T, ?_, e⟩
      rcases List.mem_append.1 hT with hT | hT
      · exact .inl (.inl hT)
      · exact .inr (.inl hT)
    · obtain ⟨T, hT, e⟩ := ho.1 i (by omega) h2 h3.2
      refine ⟨T, ?_, e⟩
      rcases List.mem_append.1 hT with hT | hT
      · exact .inl (.inr hT)
      · exact .inr (.inr hT)
  · simp only [List.flatMap_append, List.flatMap_cons, List.flatMap_nil, List.append_nil, List.mem_append] at hT
    have hold : T ∈ b.layers.flatMap PyLayer.unregister ++ b.acts.flatMap Moments.unregister ∨ T ∈ l.unregister ++ y.unregister := by
      simp only [List.mem_append]
      tauto
    have := h.le
    rcases hold with hT | hT
    · rcases h.only T hT with c | c
      · exact .inl c
      · exact .inr ⟨c.1, by dsimp only; omega⟩
    · have := ho.2 T hT
      exact .inr ⟨by omega, this.2⟩

theorem Track.linear {given : List Moments} {first : Nat} {b b' : Builder α} (h : Track given first b) {x : Moments} {side : Side} {n : Int} {S B : List Nat} {bias redux : Bool}
    (e : b.linear x side n S B bias redux = .ok b') : Track given first b' := by
  rw [Builder.linear, M.bind_eq_ok] at e
  obtain ⟨l, hl, e⟩ := e
  have e := Except.ok.inj e
  subst e
  exact h.snoc (l := .linear l) (Linear.own hl)

theorem Track.act {given : List Moments} {first : Nat} {b b' : Builder α} (h : Track given first b) {x : Moments} {name : String} (e : b.act x name = .ok b') : Track given first b' := by
  rw [Builder.act, M.bind_eq_ok] at e
  obtain ⟨l, hl, e⟩ := e
  have e := Except.ok.inj e
  subst e
  exact h.snoc (l := .act l) (Act.own hl)

theorem Track.embedding {given : List Moments} {first : Nat} {b b' : Builder α} (h : Track given first b) {x : Tensor} {axis : Int} {v c yt wt : Nat}
    (e : b.embedding x axis v c yt wt = .ok b') : Track given first b' := by
  rw [Builder.embedding, M.bind_eq_ok] at e
  obtain ⟨l, hl, e⟩ := e
  have e := Except.ok.inj e
  subst e
  exact h.snoc (l := .embedding l) (EmbeddingLayer.own hl)

theorem Track.addSlice {given : List Moments} {first : Nat} {b b' : Builder α} (h : Track given first b) {x y : Moments} {axis : Int} {redux : Bool}
    (e : b.addSlice x y axis redux = .ok b') : Track given first b' := by
  rw [Builder.addSlice, M.bind_eq_ok] at e
  obtain ⟨l, hl, e⟩ := e
  have e := Except.ok.inj e
  subst e
  exact h.snoc (l := .addSlice l) (AddSliceLayer.own hl)

theorem Track.add {given : List Moments} {first : Nat} {b b' : Builder α} (h : Track given first b) {x y : Moments} (e : b.add x y = .ok b') : Track given first b' := by
  rw [Builder.add, M.bind_eq_ok] at e
  obtain ⟨l, hl, e⟩ := e
  have e := Except.ok.inj e
  subst e
  exact h.snoc (l := .add l) (AddLayer.own hl)

theorem Track.layerNorm [FP α] {given : List Moments} {first : Nat} {b : Builder α} (h : Track given first b) {x : Moments} {axis : Int} {eps : α} {redux : Bool}
    {r : Builder α × List (Task1 α)} (e : b.layerNorm x axis eps redux = .ok r) : Track given first r.1 := by
  rw [Builder.layerNorm, M.bind_eq_ok] at e
  obtain ⟨l, hl, e⟩ := e
  have e := Except.ok.inj e
  subst e
  exact h.snoc (l := .layerNorm l.1) (LayerNorm.own hl)

theorem Track.attention {given : List Moments} {first : Nat} {b b' : Builder α} (h : Track given first b) {flash : Bool} {x : Moments} {nh nt : Nat} {mask : Tensor} {val : α} {redux : Bool}
    (e : b.attention flash x nh nt mask val redux = .ok b') : Track given first b' := by
  rw [Builder.attention, M.bind_eq_ok] at e
  obtain ⟨l, hl, e⟩ := e
  have e := Except.ok.inj e
  subst e
  cases flash
  · exact h.snoc (l := .attention l) (Own.attn (Attention.generate_ids hl).1)
  · simp only [if_true, Attention.flashGenerate, M.bind_eq_ok] at hl
    obtain ⟨l0, h0, hl⟩ := hl
    refine h.snoc (l := .flash l) (Own.attn ?_)
    rw [flashInit_keeps hl]
    exact (Attention.generate_ids h0).2

theorem Track.iter {given : List Moments} {first : Nat} {f : Builder α → M (Builder α)} (hf : ∀ b b', Track given first b → f b = .ok b' → Track given first b') :
    ∀ {n : Nat} {b b' : Builder α}, Track given first b → Builder.iter f n b = .ok b' → Track given first b'
  | 0, _, _, h, e => by
    have e := Except.ok.inj e
    subst e
    exact h
  | n + 1, b, b', h, e => by
    rw [Builder.iter, M.bind_eq_ok] at e
    obtain ⟨b1, e1, e⟩ := e
    exact Track.iter hf (hf _ _ h e1) e

theorem unregisterEntries_moments (l : List Moments) : unregisterEntries (l.map .moments) = .ok (l.flatMap Moments.unregister) := by
  induction l with
  | nil => rfl
  | cons m l ih =>
    rw [List.map_cons, unregisterEntries, ih]
    rfl

/-- From the state at the end of a constructor. -/
theorem Track.releases {given : List Moments} {first : Nat} {b : Builder α} (h : Track given first b) :
    ∃ ts, (BaseModel.init b.acts b.layers).unregister = .ok ts ∧ Releases ts (given.flatMap Moments.unregister) (b.layers.flatMap PyLayer.unused) first b.next := by
  refine ⟨b.layers.flatMap PyLayer.unregister ++ b.acts.flatMap Moments.unregister, ?_, ⟨fun T hT => ?_, h.made, h.only⟩⟩
  · rw [BaseModel.unregister, BaseModel.init, unregisterEntries_moments, M.bind_ok]
  · obtain ⟨m, hm, hT⟩ := List.mem_flatMap.1 hT
    exact List.mem_append_right _ (List.mem_flatMap.2 ⟨m, h.inputs m hm, hT⟩)

end NNTile
