import Verif.Lib.TorchStore
/-!
# C60: exchange of parameters of GPT2 with PyTorch

`from_torch` loads every parameter of the model with the elements of the PyTorch parameter which it stands for (`TorchGpt.toNNTile`; C61 shows that these are the right ones), `to_torch`
returns arrays with the elements of the parameters of the model (`GptP.toTorch`), and the two are inverse to each other. All of this is exact: elements are copied, nothing is computed.
-/
namespace NNTile
variable {α : Type}

/-- The parameters hold the given contents. -/
def GptP.Hold (p : GptP Moments) (s : Store α) (x : GptP (List Nat → α)) : Prop := List.Forall₂ (fun m x => m.value.Holds s x) p.toList x.toList

theorem GptP.Shapes.mem {p : GptP Moments} {vocab maxPos E H D inner : Nat} (hs : p.Shapes vocab maxPos E H D inner) {m : Moments} (hm : m ∈ p.toList) : m.value.shape ≠ [] := by
  obtain ⟨c1, c2, c3, c4, c5, c6⟩ := hs
  simp only [GptP.toList, List.mem_cons, List.mem_append, List.mem_flatMap, List.not_mem_nil, or_false] at hm
  rcases hm with rfl | rfl | ⟨q, hq, hm⟩ | rfl | rfl | rfl
  · rw [c1]; simp
  · rw [c2]; simp
  · have h := c3 q hq
    rw [GptBlockP.Shapes] at h
    have h' := List.mem_map_of_mem (f := fun m : Moments => m.value.shape) hm
    rw [h] at h'
    intro e
    rw [e] at h'
    simp at h'
  · rw [c4]; simp
  · rw [c5]; simp
  · rw [c6]; simp

theorem GptP.toList_length {P : Type} (p : GptP P) : p.toList.length = 2 + 16 * p.blocks.length + 3 := by
  have eP : p.toList = [p.wte, p.wpe] ++ (p.blocks.flatMap GptBlockP.toList ++ [p.gf, p.bf, p.lm]) := rfl
  rw [eP, List.length_append, List.length_append, flatMap_block_length]
  change 2 + (_ + 3) = _
  ring

/-- **`from_torch`.** The loop over the PyTorch parameters succeeds, and then every parameter holds the elements of the corresponding PyTorch parameter; no other tensor changes (except for
the temporary one). -/
theorem C60_from_torch {p : GptP Moments} {vocab maxPos E H D inner tmpId : Nat} (hs : p.Shapes vocab maxPos E H D inner) (hE : E = D * H) (hE0 : 0 < E)
    (hn : (p.toList.map fun m => m.value.id).Nodup) (htmp : ∀ m ∈ p.toList, tmpId ≠ m.value.id) {a : TorchGpt (NdArray α)} {t : TorchGpt (List Nat → α)}
    (ha : a.Is vocab maxPos E inner t) (hl : a.blocks.length = p.blocks.length) {s : Store α} (hr : ∀ m ∈ p.toList, m.value.Ready s) :
    ∃ s', fromTorchParams E H (p.toList.map .moments) tmpId a.named (0, s) = .ok (p.toList.length, s') ∧ p.Hold s' (t.toNNTile E D) ∧ (∀ m ∈ p.toList, m.value.Ready s') ∧
      OnlyChanged (tmpId :: p.toList.map fun m => m.value.id) s s' := by
  obtain ⟨s', e, r, v, o⟩ := Loads.all ⟨hn, htmp, fun m hm => hs.mem hm⟩ hE hE0 hs ha hl.symm s hr (fun i m x hi => absurd hi (Nat.not_lt_zero _))
  refine ⟨s', e, ?_, r, o⟩
  rw [GptP.Hold, List.forall₂_iff_get]
  refine ⟨?_, fun i h1 h2 => ?_⟩
  · rw [GptP.toList_length, GptP.toList_length, ← hl, ha.blocks.length_eq]
    simp [TorchGpt.toNNTile]
  · exact v i _ _ h1 (List.getElem?_eq_getElem h1) (List.getElem?_eq_getElem h2)

/-- **`to_torch`.** The loop succeeds, and the new arrays of the PyTorch parameters have the elements of the corresponding parameters of the model; no tensor changes (except for the
temporary one). -/
theorem C60_to_torch [FP α] {p : GptP Moments} {vocab maxPos E H D inner tmpId : Nat} (hs : p.Shapes vocab maxPos E H D inner) (hE : E = D * H) (hE0 : 0 < E)
    (hn : (p.toList.map fun m => m.value.id).Nodup) (htmp : ∀ m ∈ p.toList, tmpId ≠ m.value.id) {a : TorchGpt (NdArray α)} {t : TorchGpt (List Nat → α)}
    (ha : a.Is vocab maxPos E inner t) (hl : a.blocks.length = p.blocks.length) {x : GptP (List Nat → α)} {s : Store α} (hr : ∀ m ∈ p.toList, m.value.Ready s) (hx : p.Hold s x) :
    ∃ (b : TorchGpt (NdArray α)) (s' : Store α), gpt2ToTorch E (p.toList.map .moments) tmpId a.named (0, s) = .ok (b.named, p.toList.length, s') ∧
      b.Is vocab maxPos E inner (x.toTorch E D) ∧ OnlyChanged [tmpId] s s' := by
  rw [GptP.Hold, List.forall₂_iff_get] at hx
  have hlx : x.blocks.length = a.blocks.length := by
    have := hx.1
    rw [GptP.toList_length, GptP.toList_length] at this
    omega
  obtain ⟨l, s', e, ⟨b, rfl, hb⟩, o⟩ := Stores.all ⟨hn, htmp, fun m hm => hs.mem hm⟩ hE hE0 hs ha hl.symm hlx s hr (fun i m y hi hm hy => by
    obtain ⟨h1, e1⟩ := List.getElem?_eq_some_iff.1 hm
    obtain ⟨h2, e2⟩ := List.getElem?_eq_some_iff.1 hy
    have := hx.2 i h1 h2
    simp only [List.get_eq_getElem] at this
    rwa [e1, e2] at this)
  exact ⟨b, s', e, hb, o⟩

/-! ### Round trips -/

theorem split_div {E D c j : Nat} (h1 : c * E ≤ j) (h2 : j < c * E + E) : c * E + (j % E / D * D + j % E % D) = j := by
  rw [Nat.mul_comm (j % E / D) D, Nat.div_add_mod, (joint_div h1 h2).2]
  omega

theorem TorchBlock.Is.back {α : Type} {a : TorchBlock (NdArray α)} {E inner D : Nat} {t : TorchBlock (List Nat → α)} (h : a.Is E inner ((t.toNNTile E D).toTorch E D)) :
    a.Is E inner t where
  ln1w := h.ln1w
  ln1b := h.ln1b
  attnw := h.attnw.congr fun I hI => by
    obtain ⟨i, j, rfl⟩ := List.length_eq_two.1 hI.length
    simp only [InBox_cons, InBox_nil, and_true] at hI
    simp only [GptBlockP.toTorch, TorchBlock.toNNTile, List.getD_cons_zero, List.getD_cons_succ]
    by_cases c0 : j < E
    · rw [if_pos c0]
      simp only [List.getD_cons_zero, List.getD_cons_succ]
      rw [split_div (c := 0) (by omega) (by omega)]
    · by_cases c1 : j < 2 * E
      · rw [if_neg c0, if_pos c1]
        simp only [List.getD_cons_zero, List.getD_cons_succ]
        rw [split_div (c := 1) (by omega) (by omega)]
      · rw [if_neg c0, if_neg c1]
        simp only [List.getD_cons_zero, List.getD_cons_succ]
        rw [split_div (c := 2) (by omega) (by omega)]
  attnb := h.attnb.congr fun I hI => by
    obtain ⟨j, rfl⟩ := List.length_eq_one_iff.1 hI.length
    simp only [InBox_cons, InBox_nil, and_true] at hI
    simp only [GptBlockP.toTorch, TorchBlock.toNNTile, List.getD_cons_zero, List.getD_cons_succ]
    by_cases c0 : j < E
    · rw [if_pos c0]
      simp only [List.getD_cons_zero, List.getD_cons_succ]
      rw [split_div (c := 0) (by omega) (by omega)]
    · by_cases c1 : j < 2 * E
      · rw [if_neg c0, if_pos c1]
        simp only [List.getD_cons_zero, List.getD_cons_succ]
        rw [split_div (c := 1) (by omega) (by omega)]
      · rw [if_neg c0, if_neg c1]
        simp only [List.getD_cons_zero, List.getD_cons_succ]
        rw [split_div (c := 2) (by omega) (by omega)]
  projw := h.projw.congr fun I hI => by
    obtain ⟨i, j, rfl⟩ := List.length_eq_two.1 hI.length
    simp only [GptBlockP.toTorch, TorchBlock.toNNTile, List.getD_cons_zero, List.getD_cons_succ]
    rw [Nat.mul_comm (i / D) D, Nat.div_add_mod]
  projb := h.projb
  ln2w := h.ln2w
  ln2b := h.ln2b
  fcw := h.fcw.congr fun I hI => by
    obtain ⟨i, j, rfl⟩ := List.length_eq_two.1 hI.length
    rfl
  fcb := h.fcb
  outw := h.outw.congr fun I hI => by
    obtain ⟨i, j, rfl⟩ := List.length_eq_two.1 hI.length
    rfl
  outb := h.outb

theorem TorchGpt.Is.back {α : Type} {a : TorchGpt (NdArray α)} {vocab maxPos E inner D : Nat} {t : TorchGpt (List Nat → α)}
    (h : a.Is vocab maxPos E inner ((t.toNNTile E D).toTorch E D)) : a.Is vocab maxPos E inner t where
  wte := h.wte.congr fun I hI => by
    obtain ⟨i, j, rfl⟩ := List.length_eq_two.1 hI.length
    rfl
  wpe := h.wpe.congr fun I hI => by
    obtain ⟨i, j, rfl⟩ := List.length_eq_two.1 hI.length
    rfl
  blocks := by
    have hb := h.blocks
    simp only [TorchGpt.toNNTile, GptP.toTorch, List.map_map] at hb
    rw [List.forall₂_map_right_iff] at hb
    exact hb.imp fun a t h => TorchBlock.Is.back h
  lnfw := h.lnfw
  lnfb := h.lnfb
  lm := h.lm

/-- **Round trip, from PyTorch.** `to_torch` after `from_torch`, into any PyTorch model of the same shape, returns the elements which `from_torch` was given. -/
theorem C60_round_trip [FP α] {p : GptP Moments} {vocab maxPos E H D inner tmpId : Nat} (hs : p.Shapes vocab maxPos E H D inner) (hE : E = D * H) (hE0 : 0 < E)
    (hn : (p.toList.map fun m => m.value.id).Nodup) (htmp : ∀ m ∈ p.toList, tmpId ≠ m.value.id) {a a' : TorchGpt (NdArray α)} {t t' : TorchGpt (List Nat → α)}
    (ha : a.Is vocab maxPos E inner t) (hl : a.blocks.length = p.blocks.length) (ha' : a'.Is vocab maxPos E inner t') (hl' : a'.blocks.length = p.blocks.length)
    {s : Store α} (hr : ∀ m ∈ p.toList, m.value.Ready s) :
    ∃ (b : TorchGpt (NdArray α)) (s' s'' : Store α), fromTorchParams E H (p.toList.map .moments) tmpId a.named (0, s) = .ok (p.toList.length, s') ∧
      gpt2ToTorch E (p.toList.map .moments) tmpId a'.named (0, s') = .ok (b.named, p.toList.length, s'') ∧ b.Is vocab maxPos E inner t := by
  obtain ⟨s', e, v, r, -⟩ := C60_from_torch hs hE hE0 hn htmp ha hl hr
  obtain ⟨b, s'', e', hb, -⟩ := C60_to_torch hs hE hE0 hn htmp ha' hl' r v
  exact ⟨b, s', s'', e, e', hb.back⟩

theorem holds_congr {T : Tensor} {s : Store α} {x y : List Nat → α} (h : T.Holds s x) (hxy : ∀ I, InBox T.shape I → x I = y I) : T.Holds s y :=
  fun I hI => (h I hI).trans (by rw [hxy I hI])

theorem split_at {E D H h d : Nat} (hE : E = D * H) (hh : h < H) (hd : d < D) (c : Nat) :
    (c * E + (h * D + d)) / E = c ∧ (c * E + (h * D + d)) % E / D = h ∧ (c * E + (h * D + d)) % E % D = d := by
  have hlt : h * D + d < E := by
    rw [hE]
    calc h * D + d < h * D + D := by omega
      _ = D * (h + 1) := by ring
      _ ≤ D * H := Nat.mul_le_mul_left _ hh
  have hE0 : 0 < E := by omega
  obtain ⟨j1, j2⟩ := joint_div (E := E) (i := c) (v := c * E + (h * D + d)) (by omega) (by omega)
  refine ⟨j1, ?_, ?_⟩
  · rw [j2, Nat.add_sub_cancel_left, Nat.mul_comm h D, Nat.mul_add_div (by omega), Nat.div_eq_of_lt hd, Nat.add_zero]
  · rw [j2, Nat.add_sub_cancel_left, Nat.mul_comm h D, Nat.mul_add_mod, Nat.mod_eq_of_lt hd]

theorem joint_pick {E D H h d : Nat} (hE : E = D * H) (hh : h < H) (hd : d < D) {γ : Type} (x y z : γ) :
    ((if 0 * E + (h * D + d) < E then x else if 0 * E + (h * D + d) < 2 * E then y else z) = x) ∧
    ((if 1 * E + (h * D + d) < E then x else if 1 * E + (h * D + d) < 2 * E then y else z) = y) ∧
    ((if 2 * E + (h * D + d) < E then x else if 2 * E + (h * D + d) < 2 * E then y else z) = z) := by
  have hlt : h * D + d < E := by
    rw [hE]
    calc h * D + d < h * D + D := by omega
      _ = D * (h + 1) := by ring
      _ ≤ D * H := Nat.mul_le_mul_left _ hh
  refine ⟨if_pos (by omega), ?_, ?_⟩
  · rw [if_neg (by omega), if_pos (by omega)]
  · rw [if_neg (by omega), if_neg (by omega)]

theorem holds_iff_congr {T : Tensor} {s : Store α} {x y : List Nat → α} (hxy : ∀ I, InBox T.shape I → x I = y I) : T.Holds s x ↔ T.Holds s y :=
  ⟨fun h => holds_congr h hxy, fun h => holds_congr h fun I hI => (hxy I hI).symm⟩

theorem hold_back_block {q : GptBlockP Moments} {E H D inner : Nat} (hq : q.Shapes E H D inner) (hE : E = D * H) {s : Store α} {x : GptBlockP (List Nat → α)} :
    List.Forall₂ (fun m x => m.value.Holds s x) q.toList ((x.toTorch E D).toNNTile E D).toList ↔ List.Forall₂ (fun m x => m.value.Holds s x) q.toList x.toList := by
  simp only [GptBlockP.Shapes, GptBlockP.toList, List.map_cons, List.map_nil, List.cons.injEq, and_true] at hq
  obtain ⟨s0, s1, s2, s3, s4, s5, s6, s7, s8, s9, s10, s11, s12, s13, s14, s15⟩ := hq
  simp only [GptBlockP.toList, List.forall₂_cons, List.forall₂_nil_left_iff, and_true]
  have e2 : ∀ I, InBox q.wq.value.shape I → ((x.toTorch E D).toNNTile E D).wq I = x.wq I := by
    intro I hI
    rw [s2] at hI
    obtain ⟨u, v, w, rfl⟩ := List.length_eq_three.1 hI.length
    simp only [InBox_cons, InBox_nil, and_true] at hI
    obtain ⟨-, e2, e3⟩ := split_at hE hI.1 hI.2.1 0
    simp only [GptBlockP.toTorch, TorchBlock.toNNTile, List.getD_cons_zero, List.getD_cons_succ]
    rw [e2, e3, (joint_pick hE hI.1 hI.2.1 x.wq x.wk x.wv).1]
  have e3 : ∀ I, InBox q.wk.value.shape I → ((x.toTorch E D).toNNTile E D).wk I = x.wk I := by
    intro I hI
    rw [s3] at hI
    obtain ⟨u, v, w, rfl⟩ := List.length_eq_three.1 hI.length
    simp only [InBox_cons, InBox_nil, and_true] at hI
    obtain ⟨-, e2, e3⟩ := split_at hE hI.1 hI.2.1 1
    simp only [GptBlockP.toTorch, TorchBlock.toNNTile, List.getD_cons_zero, List.getD_cons_succ]
    rw [e2, e3, (joint_pick hE hI.1 hI.2.1 x.wq x.wk x.wv).2.1]
  have e4 : ∀ I, InBox q.wv.value.shape I → ((x.toTorch E D).toNNTile E D).wv I = x.wv I := by
    intro I hI
    rw [s4] at hI
    obtain ⟨u, v, w, rfl⟩ := List.length_eq_three.1 hI.length
    simp only [InBox_cons, InBox_nil, and_true] at hI
    obtain ⟨-, e2, e3⟩ := split_at hE hI.1 hI.2.1 2
    simp only [GptBlockP.toTorch, TorchBlock.toNNTile, List.getD_cons_zero, List.getD_cons_succ]
    rw [e2, e3, (joint_pick hE hI.1 hI.2.1 x.wq x.wk x.wv).2.2]
  have e5 : ∀ I, InBox q.bq.value.shape I → ((x.toTorch E D).toNNTile E D).bq I = x.bq I := by
    intro I hI
    rw [s5] at hI
    obtain ⟨v, u, rfl⟩ := List.length_eq_two.1 hI.length
    simp only [InBox_cons, InBox_nil, and_true] at hI
    obtain ⟨-, e2, e3⟩ := split_at hE hI.2 hI.1 0
    simp only [GptBlockP.toTorch, TorchBlock.toNNTile, List.getD_cons_zero, List.getD_cons_succ]
    rw [e2, e3, (joint_pick hE hI.2 hI.1 x.bq x.bk x.bv).1]
  have e6 : ∀ I, InBox q.bk.value.shape I → ((x.toTorch E D).toNNTile E D).bk I = x.bk I := by
    intro I hI
    rw [s6] at hI
    obtain ⟨v, u, rfl⟩ := List.length_eq_two.1 hI.length
    simp only [InBox_cons, InBox_nil, and_true] at hI
    obtain ⟨-, e2, e3⟩ := split_at hE hI.2 hI.1 1
    simp only [GptBlockP.toTorch, TorchBlock.toNNTile, List.getD_cons_zero, List.getD_cons_succ]
    rw [e2, e3, (joint_pick hE hI.2 hI.1 x.bq x.bk x.bv).2.1]
  have e7 : ∀ I, InBox q.bv.value.shape I → ((x.toTorch E D).toNNTile E D).bv I = x.bv I := by
    intro I hI
    rw [s7] at hI
    obtain ⟨v, u, rfl⟩ := List.length_eq_two.1 hI.length
    simp only [InBox_cons, InBox_nil, and_true] at hI
    obtain ⟨-, e2, e3⟩ := split_at hE hI.2 hI.1 2
    simp only [GptBlockP.toTorch, TorchBlock.toNNTile, List.getD_cons_zero, List.getD_cons_succ]
    rw [e2, e3, (joint_pick hE hI.2 hI.1 x.bq x.bk x.bv).2.2]
  have e8 : ∀ I, InBox q.w.value.shape I → ((x.toTorch E D).toNNTile E D).w I = x.w I := by
    intro I hI
    rw [s8] at hI
    obtain ⟨w, u, v, rfl⟩ := List.length_eq_three.1 hI.length
    simp only [InBox_cons, InBox_nil, and_true] at hI
    simp only [GptBlockP.toTorch, TorchBlock.toNNTile, List.getD_cons_zero, List.getD_cons_succ]
    rw [Nat.mul_comm u D, Nat.mul_add_div (by omega), Nat.div_eq_of_lt hI.2.2, Nat.add_zero, Nat.mul_add_mod, Nat.mod_eq_of_lt hI.2.2]
  have e12 : ∀ I, InBox q.w1.value.shape I → ((x.toTorch E D).toNNTile E D).w1 I = x.w1 I := by
    intro I hI
    rw [s12] at hI
    obtain ⟨v, u, rfl⟩ := List.length_eq_two.1 hI.length
    rfl
  have e14 : ∀ I, InBox q.w2.value.shape I → ((x.toTorch E D).toNNTile E D).w2 I = x.w2 I := by
    intro I hI
    rw [s14] at hI
    obtain ⟨v, u, rfl⟩ := List.length_eq_two.1 hI.length
    rfl
  refine and_congr Iff.rfl (and_congr Iff.rfl (and_congr (holds_iff_congr e2) (and_congr (holds_iff_congr e3) (and_congr (holds_iff_congr e4) (and_congr (holds_iff_congr e5) (and_congr (holds_iff_congr e6) (and_congr (holds_iff_congr e7) (and_congr (holds_iff_congr e8) (and_congr Iff.rfl (and_congr Iff.rfl (and_congr Iff.rfl (and_congr (holds_iff_congr e12) (and_congr Iff.rfl (and_congr (holds_iff_congr e14) Iff.rfl))))))))))))))

theorem forall₂_append_iff {β γ : Type} {R : β → γ → Prop} {l1 l2 : List β} {r1 r2 : List γ} (hl : l1.length = r1.length) :
    List.Forall₂ R (l1 ++ l2) (r1 ++ r2) ↔ List.Forall₂ R l1 r1 ∧ List.Forall₂ R l2 r2 := by
  refine ⟨fun h => ⟨?_, ?_⟩, fun h => List.rel_append h.1 h.2⟩
  · have := List.forall₂_take l1.length h
    rwa [List.take_left, hl, List.take_left] at this
  · have := List.forall₂_drop l1.length h
    rwa [List.drop_left, hl, List.drop_left] at this

theorem hold_back_blocks {E H D inner : Nat} (hE : E = D * H) {s : Store α} {post : List Moments} {xpost : List (List Nat → α)} :
    ∀ {qs : List (GptBlockP Moments)} {xs : List (GptBlockP (List Nat → α))}, qs.length = xs.length → (∀ q ∈ qs, q.Shapes E H D inner) →
      (List.Forall₂ (fun m x => m.value.Holds s x) (qs.flatMap GptBlockP.toList ++ post) ((xs.map fun x => (x.toTorch E D).toNNTile E D).flatMap GptBlockP.toList ++ xpost) ↔
      List.Forall₂ (fun m x => m.value.Holds s x) (qs.flatMap GptBlockP.toList ++ post) (xs.flatMap GptBlockP.toList ++ xpost))
  | [], [], _, _ => Iff.rfl
  | [], _ :: _, hl, _ => by simp at hl
  | _ :: _, [], hl, _ => by simp at hl
  | q :: qs, x :: xs, hl, hs => by
    simp only [List.flatMap_cons, List.map_cons, List.append_assoc]
    rw [forall₂_append_iff (l1 := q.toList) (r1 := ((x.toTorch E D).toNNTile E D).toList) rfl, forall₂_append_iff (l1 := q.toList) (r1 := x.toList) rfl]
    exact and_congr (hold_back_block (hs q (List.mem_cons_self ..)) hE) (hold_back_blocks hE (by simpa using hl) (fun q' h' => hs q' (List.mem_cons_of_mem _ h')))

/-- Contents of the parameters, and what they are after the way to PyTorch and back, are the same. -/
theorem GptP.hold_back {p : GptP Moments} {vocab maxPos E H D inner : Nat} (hs : p.Shapes vocab maxPos E H D inner) (hE : E = D * H) {s : Store α} {x : GptP (List Nat → α)}
    (hl : p.blocks.length = x.blocks.length) : p.Hold s ((x.toTorch E D).toNNTile E D) ↔ p.Hold s x := by
  obtain ⟨c1, c2, c3, -, -, -⟩ := hs
  simp only [GptP.Hold, GptP.toList, List.forall₂_cons]
  refine and_congr (holds_iff_congr fun I hI => ?_) (and_congr (holds_iff_congr fun I hI => ?_) ?_)
  · rw [c1] at hI
    obtain ⟨i, j, rfl⟩ := List.length_eq_two.1 hI.length
    rfl
  · rw [c2] at hI
    obtain ⟨i, j, rfl⟩ := List.length_eq_two.1 hI.length
    rfl
  · simp only [TorchGpt.toNNTile, GptP.toTorch, List.map_map]
    exact hold_back_blocks hE hl c3

/-- **Round trip, from NNTile.** The arrays which `to_torch` makes of the parameters of one model, loaded by `from_torch` into another model of the same configuration, give it the
same parameters. -/
theorem C60_round_trip_back [FP α] {p p' : GptP Moments} {vocab maxPos E H D inner tmpId : Nat} (hs : p.Shapes vocab maxPos E H D inner) (hs' : p'.Shapes vocab maxPos E H D inner)
    (hE : E = D * H) (hE0 : 0 < E) (hn : (p.toList.map fun m => m.value.id).Nodup) (htmp : ∀ m ∈ p.toList, tmpId ≠ m.value.id) (hn' : (p'.toList.map fun m => m.value.id).Nodup)
    (htmp' : ∀ m ∈ p'.toList, tmpId ≠ m.value.id) {a : TorchGpt (NdArray α)} {t : TorchGpt (List Nat → α)} (ha : a.Is vocab maxPos E inner t) (hl : a.blocks.length = p.blocks.length)
    (hl' : a.blocks.length = p'.blocks.length) {x : GptP (List Nat → α)} {s : Store α} (hr : ∀ m ∈ p.toList, m.value.Ready s) (hr' : ∀ m ∈ p'.toList, m.value.Ready s)
    (hx : p.Hold s x) :
    ∃ (b : TorchGpt (NdArray α)) (s' s'' : Store α), gpt2ToTorch E (p.toList.map .moments) tmpId a.named (0, s) = .ok (b.named, p.toList.length, s') ∧
      fromTorchParams E H (p'.toList.map .moments) tmpId b.named (0, s') = .ok (p'.toList.length, s'') ∧ p'.Hold s'' x := by
  have hlx : x.blocks.length = p.blocks.length := by
    have := hx.length_eq
    rw [GptP.toList_length, GptP.toList_length] at this
    omega
  obtain ⟨b, s', e, hb, o⟩ := C60_to_torch hs hE hE0 hn htmp ha hl hr hx
  have hlb : b.blocks.length = p'.blocks.length := by
    rw [hb.blocks.length_eq, ← hl', hl, ← hlx]
    simp [GptP.toTorch]
  obtain ⟨s'', e', v, -, -⟩ := C60_from_torch hs' hE hE0 hn' htmp' hb hlb (s := s') (fun m hm => o.ready (hr' m hm) (by simpa using Ne.symm (htmp' m hm)))
  refine ⟨b, s', s'', e, e', ?_⟩
  exact (GptP.hold_back hs' hE (by rw [hlx, ← hl, hl'])).1 v

/-! ### Shared weights -/

theorem loadParam_more {P Q : List PyEntry} {tmpId : Nat} {a : NdArray α} {st r : Nat × Store α} (h : loadParam P tmpId a st = .ok r) : loadParam (P ++ Q) tmpId a st = .ok r := by
  rw [loadParam] at h ⊢
  obtain ⟨q, e, h⟩ := M.bind_eq_ok.1 h
  have : pyItem (P ++ Q) st.1 = .ok q := by
    rw [pyItem] at e ⊢
    cases hq : P[st.1]? with
    | none => rw [hq] at e; exact absurd e (by simp)
    | some q' =>
      rw [hq] at e
      rw [List.getElem?_append_left (List.getElem?_eq_some_iff.1 hq).1, hq]
      exact e
  rw [this, M.bind_ok]
  exact h

theorem fromTorchParam_more {P Q : List PyEntry} {E H tmpId : Nat} {name : List String} {p : NdArray α} {st r : Nat × Store α} (h : fromTorchParam E H P tmpId name p st = .ok r) :
    fromTorchParam E H (P ++ Q) tmpId name p st = .ok r := by
  have three : ∀ {f g : Nat → Nat × Store α → M (Nat × Store α)}, (∀ i st r, f i st = .ok r → g i st = .ok r) → ∀ {st r}, forN 3 f st = .ok r → forN 3 g st = .ok r := by
    intro f g hfg st r h
    rw [forN3_eq] at h ⊢
    obtain ⟨r0, e0, h⟩ := M.bind_eq_ok.1 h
    obtain ⟨r1, e1, h⟩ := M.bind_eq_ok.1 h
    rw [hfg 0 _ _ e0, M.bind_ok, hfg 1 _ _ e1, M.bind_ok, hfg 2 _ _ h]
  rw [fromTorchParam] at h ⊢
  obtain ⟨layer, e1, h⟩ := M.bind_eq_ok.1 h
  obtain ⟨last, e2, h⟩ := M.bind_eq_ok.1 h
  rw [e1, M.bind_ok, e2, M.bind_ok]
  by_cases c1 : layer = "lm_head"
  · rw [if_pos c1] at h ⊢
    exact loadParam_more h
  rw [if_neg c1] at h ⊢
  by_cases c2 : layer = "c_attn" ∧ last = "weight"
  · rw [if_pos c2] at h ⊢
    refine three (fun i st r h => ?_) h
    obtain ⟨a, e, h⟩ := M.bind_eq_ok.1 h
    obtain ⟨b, e', h⟩ := M.bind_eq_ok.1 h
    rw [e, M.bind_ok, e', M.bind_ok]
    exact loadParam_more h
  rw [if_neg c2] at h ⊢
  by_cases c3 : layer = "c_attn" ∧ last = "bias"
  · rw [if_pos c3] at h ⊢
    refine three (fun i st r h => ?_) h
    obtain ⟨a, e, h⟩ := M.bind_eq_ok.1 h
    obtain ⟨b, e', h⟩ := M.bind_eq_ok.1 h
    rw [e, M.bind_ok, e', M.bind_ok]
    exact loadParam_more h
  rw [if_neg c3] at h ⊢
  by_cases c4 : layer = "c_proj"
  · rw [if_pos c4] at h ⊢
    obtain ⟨up, e, h⟩ := M.bind_eq_ok.1 h
    rw [e, M.bind_ok]
    by_cases c5 : up = "attn"
    · rw [if_pos c5] at h ⊢
      by_cases c6 : last = "weight"
      · rw [if_pos c6] at h ⊢
        obtain ⟨a, e, h⟩ := M.bind_eq_ok.1 h
        rw [e, M.bind_ok]
        exact loadParam_more h
      rw [if_neg c6] at h ⊢
      by_cases c7 : last = "bias"
      · rw [if_pos c7] at h ⊢
        exact loadParam_more h
      · rw [if_neg c7] at h ⊢
        exact h
    · rw [if_neg c5] at h ⊢
      exact loadParam_more h
  · rw [if_neg c4] at h ⊢
    exact loadParam_more h

theorem fromTorchParams_more {P Q : List PyEntry} {E H tmpId : Nat} : ∀ {l : List (List String × NdArray α)} {st r : Nat × Store α}, fromTorchParams E H P tmpId l st = .ok r →
    fromTorchParams E H (P ++ Q) tmpId l st = .ok r
  | [], _, _, h => h
  | q :: qs, st, r, h => by
    rw [fromTorchParams] at h ⊢
    obtain ⟨r0, e, h⟩ := M.bind_eq_ok.1 h
    rw [fromTorchParam_more e, M.bind_ok]
    exact fromTorchParams_more h

/-- What `named_parameters()` lists if the weight of `lm_head` is that of `wte` (as it is in Hugging Face models by default): every parameter once. -/
def TorchGpt.namedShared {A : Type} (t : TorchGpt A) : List (List String × A) := t.named.dropLast

/-- **Shared weights.** If the PyTorch model shares the weights of `lm_head` and `wte`, then `from_torch` succeeds all the same, but it never touches the parameter of the last layer: whatever was
in its memory remains there. (The examples and tests separate the weights before they call `from_torch`.) -/
theorem C60_shared {p : GptP Moments} {vocab maxPos E H D inner tmpId : Nat} (hs : p.Shapes vocab maxPos E H D inner) (hE : E = D * H) (hE0 : 0 < E)
    (hn : (p.toList.map fun m => m.value.id).Nodup) (htmp : ∀ m ∈ p.toList, tmpId ≠ m.value.id) {a : TorchGpt (NdArray α)} {t : TorchGpt (List Nat → α)}
    (ha : a.Is vocab maxPos E inner t) (hl : a.blocks.length = p.blocks.length) {s : Store α} (hr : ∀ m ∈ p.toList, m.value.Ready s) :
    ∃ r, fromTorchParams E H (p.toList.map .moments) tmpId a.namedShared (0, s) = .ok r ∧ ∀ k, r.2 (p.lm.value.id, k) = s (p.lm.value.id, k) := by
  have ed : p.toList = p.toList.dropLast ++ [p.lm] := by
    rw [GptP.toList, show [p.gf, p.bf, p.lm] = [p.gf, p.bf] ++ [p.lm] from rfl, ← List.append_assoc, ← List.cons_append, ← List.cons_append, List.dropLast_concat]
  have ep : p.toList.dropLast = [p.wte, p.wpe] ++ (p.blocks.flatMap GptBlockP.toList ++ [p.gf, p.bf]) := by
    rw [GptP.toList, show [p.gf, p.bf, p.lm] = [p.gf, p.bf] ++ [p.lm] from rfl, ← List.append_assoc, ← List.cons_append, ← List.cons_append, List.dropLast_concat]
    rfl
  have en : a.namedShared = [(["transformer", "wte", "weight"], a.wte), (["transformer", "wpe", "weight"], a.wpe)] ++ namedBlocks 0 a.blocks ++
      [(["transformer", "ln_f", "weight"], a.lnfw), (["transformer", "ln_f", "bias"], a.lnfb)] := by
    rw [TorchGpt.namedShared, TorchGpt.named, show ∀ x y z : List String × NdArray α, [x, y, z] = [x, y] ++ [z] from fun _ _ _ => rfl, ← List.append_assoc, List.dropLast_concat]
  have hp : ParamsOk p.toList.dropLast tmpId := by
    have hsub : ∀ m ∈ p.toList.dropLast, m ∈ p.toList := fun m hm => List.dropLast_subset _ hm
    refine ⟨?_, fun m hm => htmp m (hsub m hm), fun m hm => hs.mem (hsub m hm)⟩
    exact List.Nodup.sublist ((List.dropLast_sublist _).map _) hn
  have eX : (t.toNNTile E D).toList = [(t.toNNTile E D).wte, (t.toNNTile E D).wpe] ++ ((t.blocks.map (TorchBlock.toNNTile E D)).flatMap GptBlockP.toList ++ [t.lnfw, t.lnfb, t.lm]) := rfl
  obtain ⟨c1, c2, c3, c4, c5, c6⟩ := hs
  have tP : ∀ j, j < 2 → p.toList.dropLast[2 + 16 * p.blocks.length + j]? = [p.gf, p.bf][j]? := fun j hj =>
    getElem?_block (pre := [p.wte, p.wpe] ++ p.blocks.flatMap GptBlockP.toList) (l := [p.gf, p.bf]) (post := []) (by rw [List.length_append, flatMap_block_length]; rfl)
      (by rw [ep, List.append_nil, List.append_assoc]) hj
  have tX : ∀ j, j < 3 → (t.toNNTile E D).toList[2 + 16 * p.blocks.length + j]? = [t.lnfw, t.lnfb, t.lm][j]? := fun j hj =>
    getElem?_block (pre := [(t.toNNTile E D).wte, (t.toNNTile E D).wpe] ++ (t.blocks.map (TorchBlock.toNNTile E D)).flatMap GptBlockP.toList) (l := [t.lnfw, t.lnfb, t.lm]) (post := [])
      (by rw [List.length_append, flatMap_block_length, List.length_map, ← ha.blocks.length_eq, hl]; rfl) (by rw [eX, List.append_nil, List.append_assoc]) hj
  have p0 : p.toList.dropLast[0]? = some p.wte := by rw [ep]; rfl
  have p1 : p.toList.dropLast[1]? = some p.wpe := by rw [ep]; rfl
  have key : Loads p.toList.dropLast (t.toNNTile E D).toList tmpId (fromTorchParams E H (p.toList.dropLast.map PyEntry.moments) tmpId a.namedShared) 0 (2 + 16 * p.blocks.length + 2) := by
    rw [en]
    refine Loads.append (n := 2 + 16 * p.blocks.length) (Loads.append (n := 2) ?_ ?_) ?_
    · refine Loads.cons (n := 1) (Loads.mat hp (layer := "wte") rfl rfl (by decide) (by decide) (fun h => absurd h (by decide)) ha.wte p0 rfl rfl c1) ?_
      exact Loads.cons (n := 2) (Loads.mat hp (layer := "wpe") rfl rfl (by decide) (by decide) (fun h => absurd h (by decide)) ha.wpe p1 rfl rfl c2) Loads.nil
    · exact Loads.blocks hp hE hE0 ha.blocks (pre := [p.wte, p.wpe]) hl.symm c3 ep eX rfl 0
    · refine Loads.cons (n := 2 + 16 * p.blocks.length + 1) (Loads.vec hp (layer := "ln_f") rfl rfl (by decide) (by decide) (fun h => absurd h (by decide)) ha.lnfw
        (tP 0 (by omega)) (tX 0 (by omega)) c4) ?_
      exact Loads.cons (n := 2 + 16 * p.blocks.length + 2) (Loads.vec hp (layer := "ln_f") rfl rfl (by decide) (by decide) (fun h => absurd h (by decide)) ha.lnfb
        (tP 1 (by omega)) (tX 1 (by omega)) c5) Loads.nil
  obtain ⟨s', e, -, -, o⟩ := key s (fun m hm => hr m (List.dropLast_subset _ hm)) (fun i m x hi => absurd hi (Nat.not_lt_zero _))
  refine ⟨(2 + 16 * p.blocks.length + 2, s'), ?_, fun k => o _ ?_⟩
  · rw [ed, List.map_append]
    exact fromTorchParams_more e
  · rw [ed, List.map_append, List.nodup_append] at hn
    intro h
    rcases List.mem_cons.1 h with h | h
    · exact htmp p.lm (by rw [ed]; simp) h.symm
    · exact hn.2.2 _ h p.lm.value.id (by simp) rfl

/-! ### The hypotheses can be met -/

/-- A tensor with identifier `i`, cut into two tiles along its first axis. -/
def torchExampleM (i : Nat) (shape : List Nat) : Moments := ⟨⟨i, shape, shape.modifyHead (fun n => n / 2 + 1)⟩, ⟨i, shape, shape⟩, false⟩

/-- The parameters of a model with one block: 11 tokens, 5 positions, 4 features (2 heads of size 2), 6 inner features. -/
def torchExampleP : GptP Moments :=
  ⟨torchExampleM 0 [4, 11], torchExampleM 1 [4, 5],
    [⟨torchExampleM 2 [4], torchExampleM 3 [4], torchExampleM 4 [2, 2, 4], torchExampleM 5 [2, 2, 4], torchExampleM 6 [2, 2, 4], torchExampleM 7 [2, 2], torchExampleM 8 [2, 2],
      torchExampleM 9 [2, 2], torchExampleM 10 [4, 2, 2], torchExampleM 11 [4], torchExampleM 12 [4], torchExampleM 13 [4], torchExampleM 14 [6, 4], torchExampleM 15 [6],
      torchExampleM 16 [4, 6], torchExampleM 17 [4]⟩],
    torchExampleM 18 [4], torchExampleM 19 [4], torchExampleM 20 [11, 4]⟩

/-- Any PyTorch model with one block of these sizes is loaded into these parameters, and given back by `to_torch`. -/
example [FP α] (t : TorchGpt (List Nat → α)) (ht : t.blocks.length = 1) : ∃ (s s1 s2 : Store α) (b : TorchGpt (NdArray α)),
    fromTorchParams 4 2 (torchExampleP.toList.map .moments) 100 (t.arrays 11 5 4 6).named (0, s) = .ok (21, s1) ∧ torchExampleP.Hold s1 (t.toNNTile 4 2) ∧
    gpt2ToTorch 4 (torchExampleP.toList.map .moments) 100 (t.arrays 11 5 4 6).named (0, s1) = .ok (b.named, 21, s2) ∧ b.Is 11 5 4 6 t := by
  have hn : (torchExampleP.toList.map fun m => m.value.id).Nodup := by decide
  have htmp : ∀ m ∈ torchExampleP.toList, 100 ≠ m.value.id := by decide
  have hsh : torchExampleP.Shapes 11 5 4 2 2 6 := ⟨rfl, rfl, fun q hq => by rw [List.mem_singleton.1 hq]; rfl, rfl, rfl, rfl⟩
  have hl : (t.arrays 11 5 4 6).blocks.length = torchExampleP.blocks.length := by rw [TorchGpt.arrays, List.length_map, ht]; rfl
  have hS := storeOf_spec (torchExampleP.toList.map fun m => (m.value, fun _ => (0 : α))) (by
    simp [torchExampleP, GptP.toList, GptBlockP.toList, torchExampleM, Tensor.WF, Pos]) (by rw [List.map_map]; exact hn)
  generalize storeOf _ = s at hS
  have hr : ∀ m ∈ torchExampleP.toList, m.value.Ready s := fun m hm => (hS _ (List.mem_map_of_mem hm)).1
  obtain ⟨s1, e1, v1, r1, -⟩ := C60_from_torch hsh rfl (by omega) hn htmp (t.arrays_is 11 5 4 6) hl hr
  obtain ⟨b, s2, e2, hb, -⟩ := C60_to_torch hsh rfl (by omega) hn htmp (t.arrays_is 11 5 4 6) hl r1 v1
  exact ⟨s, s1, s2, b, e1, v1, e2, hb.back⟩

end NNTile
