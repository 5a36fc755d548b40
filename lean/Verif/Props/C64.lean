import Verif.Props.C63
/-!
# C64: exchange of the parameters of `MlpMixer` with PyTorch

`from_torch` and `to_torch` copy all parameters, exactly, whatever the sizes are, and they are inverse to each other. With different sizes of patches and vectors the arrays are those of the same function
(C63); with the same sizes both of them leave the matrix of the projection as it is.
-/
namespace NNTile
variable {α : Type} {n q E C tmpId : Nat}

/-- What is known of the parameters of a model, of the temporary tensor and of a PyTorch model of the same sizes. -/
structure MixExchange (p : MixP Moments) (a : MixP (NdArray α)) (t : MixP (List Nat → α)) (n q E C tmpId : Nat) : Prop where
  shapes : p.Shapes n q E C
  embed : 0 < E
  ids : (p.toList.map fun m => m.value.id).Nodup
  tmp : ∀ m ∈ p.toList, tmpId ≠ m.value.id
  torch : a.IsTorch n q E C t
  blocks : p.blocks.length = a.blocks.length

/-- The elements of the projection are exchanged transposed if the sizes are different. -/
def mixW (q E : Nat) (w : List Nat → α) : List Nat → α := if q = E then w else swap2 w

/-- **`from_torch`.** The loop succeeds, and every parameter holds the elements of its PyTorch parameter; no other tensor changes (except for the temporary one). -/
theorem C64_from_torch {p : MixP Moments} {a : MixP (NdArray α)} {t : MixP (List Nat → α)} (h : MixExchange p a t n q E C tmpId) {s : Store α} (hr : ∀ m ∈ p.toList, m.value.Ready s) :
    ∃ s', mixLoads tmpId p.toList a.toList s = .ok s' ∧ p.Hold s' {t.toNNTile with w := mixW q E t.w} ∧ (∀ m ∈ p.toList, m.value.Ready s') ∧
      OnlyChanged (tmpId :: p.toList.map fun m => m.value.id) s s' := by
  refine mixLoads_spec (MixP.pairs h.shapes h.embed h.torch h.blocks ?_) h.ids h.tmp hr
  rw [mixW]
  have hw := h.torch.w
  have hs := h.shapes.1
  by_cases e : q = E
  · rw [if_pos e]
    subst e
    exact .same hw (by simp) hs
  · rw [if_neg e]
    exact .swap hw hs e

/-- **`to_torch`.** The loop succeeds, and the PyTorch parameters get the elements of the parameters of the model; no tensor changes (except for the temporary one). -/
theorem C64_to_torch [FP α] {p : MixP Moments} {a : MixP (NdArray α)} {t : MixP (List Nat → α)} (h : MixExchange p a t n q E C tmpId) {s : Store α} (hr : ∀ m ∈ p.toList, m.value.Ready s)
    {x : MixP (List Nat → α)} (hx : p.Hold s x) :
    ∃ (b : MixP (NdArray α)) (s' : Store α), mixSaves tmpId p.toList a.toList s = .ok (b.toList, s') ∧ b.IsTorch n q E C {x.toNNTile with w := mixW q E x.w} ∧ b.blocks.length = a.blocks.length ∧
      OnlyChanged [tmpId] s s' := by
  have hlx : x.blocks.length = p.blocks.length := by
    have := hx.length_eq
    rw [MixP.toList_length, MixP.toList_length] at this
    omega
  obtain ⟨as, s', e, v, o⟩ := mixSaves_spec (tmpId := tmpId) (MixP.backs h.shapes h.embed h.torch h.blocks hx (w := mixW q E x.w) (by
    rw [mixW, h.torch.w.1]
    have hs := h.shapes.1
    by_cases e : q = E
    · rw [if_pos e]
      subst e
      exact .same (by simp) hs
    · rw [if_neg e]
      exact .swap hs e)) h.tmp hr (fun _ _ => rfl)
  obtain ⟨b, rfl, hb⟩ := MixP.is_back h.torch (by simp [MixP.toNNTile, hlx, h.blocks]) v
  refine ⟨b, s', e, hb, ?_, o⟩
  rw [hb.blocks.length_eq]
  simp [MixP.toNNTile, hlx, h.blocks]

theorem swap2_twice {x : List Nat → α} {m n : Nat} : ∀ I, InBox [m, n] I → swap2 (swap2 x) I = x I := by
  intro I hI
  obtain ⟨i, j, rfl⟩ := List.length_eq_two.1 hI.length
  rfl

theorem mixW_twice {w : List Nat → α} {m n : Nat} : ∀ I, InBox [m, n] I → mixW q E (mixW q E w) I = w I := by
  intro I hI
  unfold mixW
  by_cases e : q = E
  · simp only [if_pos e]
  · simp only [if_neg e]
    exact swap2_twice I hI

theorem MixBlockP.IsTorch.twice {b : MixBlockP (NdArray α)} {t : MixBlockP (List Nat → α)} (h : b.IsTorch n E t.toNNTile.toNNTile) : b.IsTorch n E t :=
  ⟨h.g1, h.b1, h.u1, h.u2, h.g2, h.b2, h.v1.congr swap2_twice, h.v2.congr swap2_twice⟩

theorem MixBlockP.IsTorch.twices : ∀ {bs : List (MixBlockP (NdArray α))} {ts : List (MixBlockP (List Nat → α))},
    List.Forall₂ (fun a t => a.IsTorch n E t) bs ((ts.map MixBlockP.toNNTile).map MixBlockP.toNNTile) → List.Forall₂ (fun a t => a.IsTorch n E t) bs ts
  | _, [], h => by simpa using h
  | _, _ :: _, .cons h1 h2 => .cons h1.twice (MixBlockP.IsTorch.twices h2)

/-- **Round trip, from PyTorch.** The arrays which `to_torch` makes of the parameters loaded by `from_torch` have the elements of the arrays which were loaded; it does not matter what the PyTorch model
which takes them (`a'`, of the same sizes) had before. -/
theorem C64_round_trip [FP α] {p : MixP Moments} {a a' : MixP (NdArray α)} {t t' : MixP (List Nat → α)} (h : MixExchange p a t n q E C tmpId) (h' : MixExchange p a' t' n q E C tmpId)
    {s : Store α} (hr : ∀ m ∈ p.toList, m.value.Ready s) :
    ∃ (b : MixP (NdArray α)) (s1 s2 : Store α), mixLoads tmpId p.toList a.toList s = .ok s1 ∧ mixSaves tmpId p.toList a'.toList s1 = .ok (b.toList, s2) ∧ b.IsTorch n q E C t := by
  obtain ⟨s1, e1, v1, r1, -⟩ := C64_from_torch h hr
  obtain ⟨b, s2, e2, hb, -⟩ := C64_to_torch h' r1 v1
  exact ⟨b, s1, s2, e1, e2, hb.w.congr mixW_twice, MixBlockP.IsTorch.twices hb.blocks, hb.wc⟩

theorem MixBlockP.hold_twice {b : MixBlockP Moments} (hb : b.Shapes n E) {s : Store α} {x : MixBlockP (List Nat → α)} (h : List.Forall₂ (fun m x => m.value.Holds s x) b.toList x.toNNTile.toNNTile.toList) :
    List.Forall₂ (fun m x => m.value.Holds s x) b.toList x.toList := by
  simp only [MixBlockP.Shapes, MixBlockP.toList, List.map_cons, List.map_nil, List.cons.injEq, and_true] at hb
  obtain ⟨c1, c2, c3, c4, c5, c6, c7, c8⟩ := hb
  simp only [MixBlockP.toList, List.forall₂_cons, List.forall₂_nil_left_iff] at h ⊢
  obtain ⟨d1, d2, d3, d4, d5, d6, d7, d8, -⟩ := h
  exact ⟨d1, d2, d3, d4, d5, d6, holds_congr d7 (by rw [c7]; exact swap2_twice), holds_congr d8 (by rw [c8]; exact swap2_twice), trivial⟩

theorem MixBlockP.hold_twices {s : Store α} : ∀ {bs : List (MixBlockP Moments)} {xs : List (MixBlockP (List Nat → α))}, (∀ b ∈ bs, b.Shapes n E) → bs.length = xs.length →
    List.Forall₂ (fun m x => m.value.Holds s x) (bs.flatMap MixBlockP.toList) (((xs.map MixBlockP.toNNTile).map MixBlockP.toNNTile).flatMap MixBlockP.toList) →
    List.Forall₂ (fun m x => m.value.Holds s x) (bs.flatMap MixBlockP.toList) (xs.flatMap MixBlockP.toList)
  | [], [], _, _, _ => .nil
  | [], _ :: _, _, hl, _ => by simp at hl
  | _ :: _, [], _, hl, _ => by simp at hl
  | b :: bs, x :: xs, hb, hl, h => by
    simp only [List.flatMap_cons, List.map_cons] at h ⊢
    rw [forall₂_append_iff (l1 := b.toList) (r1 := x.toNNTile.toNNTile.toList) rfl] at h
    rw [forall₂_append_iff (l1 := b.toList) (r1 := x.toList) rfl]
    exact ⟨MixBlockP.hold_twice (hb b (by simp)) h.1, MixBlockP.hold_twices (fun b' h' => hb b' (List.mem_cons_of_mem _ h')) (by simpa using hl) h.2⟩

/-- **Round trip, from NNTile.** The arrays which `to_torch` makes of the parameters of one model, loaded by `from_torch` into another model of the same sizes, give it the same parameters. -/
theorem C64_round_trip_back [FP α] {p p' : MixP Moments} {a : MixP (NdArray α)} {t : MixP (List Nat → α)} (h : MixExchange p a t n q E C tmpId) (h' : MixExchange p' a t n q E C tmpId)
    {s : Store α} (hr : ∀ m ∈ p.toList, m.value.Ready s) (hr' : ∀ m ∈ p'.toList, m.value.Ready s) {x : MixP (List Nat → α)} (hx : p.Hold s x) :
    ∃ (b : MixP (NdArray α)) (s1 s2 : Store α), mixSaves tmpId p.toList a.toList s = .ok (b.toList, s1) ∧ mixLoads tmpId p'.toList b.toList s1 = .ok s2 ∧ p'.Hold s2 x := by
  have hlx : x.blocks.length = p.blocks.length := by
    have := hx.length_eq
    rw [MixP.toList_length, MixP.toList_length] at this
    omega
  obtain ⟨b, s1, e1, hb, hl, o⟩ := C64_to_torch h hr hx
  obtain ⟨s2, e2, v, -, -⟩ := C64_from_torch ⟨h'.shapes, h'.embed, h'.ids, h'.tmp, hb, by rw [hl, h'.blocks]⟩ (s := s1) (fun m hm => o.ready (hr' m hm) (by simpa using Ne.symm (h'.tmp m hm)))
  refine ⟨b, s1, s2, e1, e2, ?_⟩
  have hl' : p'.blocks.length = x.blocks.length := by rw [hlx, h.blocks, h'.blocks]
  simp only [MixP.Hold, MixP.toList, MixP.toNNTile, List.forall₂_cons] at v ⊢
  have ll : (p'.blocks.flatMap MixBlockP.toList).length = (((x.blocks.map MixBlockP.toNNTile).map MixBlockP.toNNTile).flatMap MixBlockP.toList).length := by
    rw [mixBlocks_length, mixBlocks_length, List.length_map, List.length_map, hl']
  have ll' : (p'.blocks.flatMap MixBlockP.toList).length = (x.blocks.flatMap MixBlockP.toList).length := by rw [mixBlocks_length, mixBlocks_length, hl']
  rw [forall₂_append_iff ll] at v
  rw [forall₂_append_iff ll']
  refine ⟨holds_congr v.1 ?_, MixBlockP.hold_twices h'.shapes.2.1 hl' v.2.1, v.2.2⟩
  rw [h'.shapes.1]
  exact mixW_twice

/-- If the sizes are different, the arrays which `to_torch` makes compute in PyTorch what `forward_async` computes. -/
theorem C64_to_torch_function (hne : q ≠ E) (x : MixP (List Nat → ℝ)) (v : List Nat → ℝ) (b c : Nat) :
    torchMixer n q E {x.toNNTile with w := mixW q E x.w} (fun p b e => v [p, b, e]) b c = mixOut n q E x v [c, b] := by
  rw [← C63_function, mixW, if_neg hne]
  change mixOut n q E x.toNNTile.toNNTile v [c, b] = _
  have key : ∀ (bs : List (MixBlockP (List Nat → ℝ))) (y : List Nat → ℝ), (bs.map (fun b => b.toNNTile.toNNTile)).foldl (mixBlockOut n E) y = bs.foldl (mixBlockOut n E) y := by
    intro bs
    induction bs with
    | nil => exact fun _ => rfl
    | cons b bs ih =>
      intro y
      rw [List.map_cons, List.foldl_cons, List.foldl_cons, ih]
      rfl
  simp only [mixOut, MixP.toNNTile, List.map_map]
  refine congrFun (congrArg (mixClassify n E x.wc) (Eq.trans (key _ _) ?_)) _
  congr 1

/-! ### The hypotheses can be met -/

/-- A tensor with identifier `i`, cut into tiles. -/
def mixTorchM (i : Nat) (shape : List Nat) : Moments := ⟨⟨i, shape, shape.modifyHead (fun n => n / 2 + 1)⟩, ⟨i, shape, shape⟩, false⟩

/-- The parameters of a model with one mixer layer: 3 patches of 5 elements, vectors of size 4, 2 classes. -/
def mixTorchP : MixP Moments :=
  ⟨mixTorchM 0 [5, 4], [⟨mixTorchM 1 [4], mixTorchM 2 [4], mixTorchM 3 [12, 3], mixTorchM 4 [3, 12], mixTorchM 5 [4], mixTorchM 6 [4], mixTorchM 7 [4, 16], mixTorchM 8 [16, 4]⟩], mixTorchM 9 [2, 4]⟩

example [FP α] : ∃ (a : MixP (NdArray α)) (t : MixP (List Nat → α)) (s : Store α), MixExchange mixTorchP a t 3 5 4 2 10 ∧ ∀ m ∈ mixTorchP.toList, m.value.Ready s := by
  have hn : (mixTorchP.toList.map fun m => m.value.id).Nodup := by decide
  have hS := storeOf_spec (mixTorchP.toList.map fun m => (m.value, fun _ => (0 : α))) (by
    simp [mixTorchP, MixP.toList, MixBlockP.toList, mixTorchM, Tensor.WF, Pos]) (by rw [List.map_map]; exact hn)
  have hb : ∃ b : MixBlockP (NdArray α), b.IsTorch 3 4 ⟨fun _ => 0, fun _ => 0, fun _ => 0, fun _ => 0, fun _ => 0, fun _ => 0, fun _ => 0, fun _ => 0⟩ :=
    ⟨⟨ndOf _ _, ndOf _ _, ndOf _ _, ndOf _ _, ndOf _ _, ndOf _ _, ndOf _ _, ndOf _ _⟩, ndOf_is _ _, ndOf_is _ _, ndOf_is _ _, ndOf_is _ _, ndOf_is _ _, ndOf_is _ _, ndOf_is _ _, ndOf_is _ _⟩
  obtain ⟨b, hb⟩ := hb
  refine ⟨⟨ndOf [4, 5] fun _ => 0, [b], ndOf [2, 4] fun _ => 0⟩, ⟨fun _ => 0, [_], fun _ => 0⟩, _, ⟨?_, by decide, hn, by decide, ⟨ndOf_is _ _, .cons hb .nil, ndOf_is _ _⟩, rfl⟩,
    fun m hm => (hS _ (List.mem_map_of_mem hm)).1⟩
  exact ⟨rfl, fun b hb => by rw [List.mem_singleton.1 hb]; rfl, rfl⟩

/-- `to_torch` to a PyTorch model with further parameters `extra`: the conversion has the same outcome and leaves `extra` as they are. -/
theorem C64_surplus {α : Type} [FP α] (tmpId : Nat) (extra : List (NdArray α)) : ∀ (ms : List Moments) (ps : List (NdArray α)) (s : Store α), ms.length = ps.length →
    mixSaves tmpId ms (ps ++ extra) s = (mixSaves tmpId ms ps s >>= fun r => .ok (r.1 ++ extra, r.2))
  | [], [], s, _ => by cases extra <;> rfl
  | m :: ms, p :: ps, s, h => by
    rw [List.cons_append, mixSaves, mixSaves]
    cases hr : mixSave tmpId m.value p s with
    | error e => rfl
    | ok r =>
      simp only [M.bind_ok]
      rw [C64_surplus tmpId extra ms ps r.2 (by simpa using h)]
      cases mixSaves tmpId ms ps r.2 <;> rfl
  | [], _ :: _, _, h => by simp at h
  | _ :: _, [], _, h => by simp at h

end NNTile
