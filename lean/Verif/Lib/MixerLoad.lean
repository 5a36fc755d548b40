import Verif.Lib.MixerTorch
/-!
# All parameters of `MlpMixer`
-/
namespace NNTile
variable {α : Type}

theorem MixPair.same {T : Tensor} {p : NdArray α} {x : List Nat → α} {S : List Nat} (hp : p.Is S x) (h0 : S ≠ []) (hT : T.shape = S) : MixPair T p x x :=
  ⟨S, hp, h0, .inr ⟨by rw [hT], hT, fun _ _ => rfl⟩⟩

theorem MixPair.swap {T : Tensor} {p : NdArray α} {x : List Nat → α} {m n : Nat} (hp : p.Is [m, n] x) (hT : T.shape = [n, m]) (hne : n ≠ m) : MixPair T p x (swap2 x) := by
  refine ⟨[m, n], hp, by simp, .inl ⟨by rw [hT]; simpa using hne, hT, fun I hI => ?_⟩⟩
  rw [hT] at hI
  obtain ⟨i, j, rfl⟩ := List.length_eq_two.1 hI.length
  rfl

theorem MixBack.same {T : Tensor} {x : List Nat → α} {S : List Nat} (h0 : S ≠ []) (hT : T.shape = S) : MixBack T S x x := ⟨h0, .inr ⟨by rw [hT], hT, fun _ _ => rfl⟩⟩

theorem MixBack.swap {T : Tensor} {x : List Nat → α} {m n : Nat} (hT : T.shape = [n, m]) (hne : n ≠ m) : MixBack T [m, n] (swap2 x) x := by
  refine ⟨by simp, .inl ⟨by rw [hT]; simpa using hne, hT, fun I hI => ?_⟩⟩
  obtain ⟨i, j, rfl⟩ := List.length_eq_two.1 hI.length
  rfl

theorem MixBlockP.pairs {q : MixBlockP Moments} {n E : Nat} (hq : q.Shapes n E) (hE : 0 < E) {a : MixBlockP (NdArray α)} {t : MixBlockP (List Nat → α)} (ha : a.IsTorch n E t) :
    All3 (fun m p y => ∃ x, MixPair m.value p x y) q.toList a.toList t.toNNTile.toList := by
  simp only [MixBlockP.Shapes, MixBlockP.toList, List.map_cons, List.map_nil, List.cons.injEq, and_true] at hq
  obtain ⟨c1, c2, c3, c4, c5, c6, c7, c8⟩ := hq
  exact .cons ⟨_, .same ha.g1 (by simp) c1⟩ (.cons ⟨_, .same ha.b1 (by simp) c2⟩ (.cons ⟨_, .same ha.u1 (by simp) c3⟩ (.cons ⟨_, .same ha.u2 (by simp) c4⟩
    (.cons ⟨_, .same ha.g2 (by simp) c5⟩ (.cons ⟨_, .same ha.b2 (by simp) c6⟩ (.cons ⟨_, .swap ha.v1 c7 (by omega)⟩ (.cons ⟨_, .swap ha.v2 c8 (by omega)⟩ .nil)))))))

theorem MixBlockP.pairs_all {n E : Nat} (hE : 0 < E) : ∀ {qs : List (MixBlockP Moments)} {as : List (MixBlockP (NdArray α))} {ts : List (MixBlockP (List Nat → α))}, (∀ q ∈ qs, q.Shapes n E) →
    List.Forall₂ (fun a t => a.IsTorch n E t) as ts → qs.length = as.length →
    All3 (fun m p y => ∃ x, MixPair m.value p x y) (qs.flatMap MixBlockP.toList) (as.flatMap MixBlockP.toList) ((ts.map MixBlockP.toNNTile).flatMap MixBlockP.toList)
  | [], _, _, _, .nil, _ => .nil
  | [], _, _, _, .cons _ _, hl => by simp at hl
  | _ :: _, _, _, _, .nil, hl => by simp at hl
  | q :: qs, _, _, hq, .cons h1 h2, hl => by
    simp only [List.flatMap_cons, List.map_cons]
    exact (MixBlockP.pairs (hq q (by simp)) hE h1).append (MixBlockP.pairs_all hE (fun q' h => hq q' (List.mem_cons_of_mem _ h)) h2 (by simpa using hl))

/-- All parameters, if the first matrix gets the elements `w`. -/
theorem MixP.pairs {p : MixP Moments} {n q E C : Nat} (hp : p.Shapes n q E C) (hE : 0 < E) {a : MixP (NdArray α)} {t : MixP (List Nat → α)} (ha : a.IsTorch n q E C t)
    (hl : p.blocks.length = a.blocks.length) {w : List Nat → α} (hw : MixPair p.w.value a.w t.w w) :
    All3 (fun m p y => ∃ x, MixPair m.value p x y) p.toList a.toList ({t.toNNTile with w := w} : MixP _).toList := by
  refine .cons ⟨_, hw⟩ ((MixBlockP.pairs_all hE hp.2.1 ha.blocks hl).append (.cons ⟨_, .same ha.wc (by simp) hp.2.2⟩ .nil))

/-! ### `to_torch` -/

theorem MixBlockP.backs [FP α] {q : MixBlockP Moments} {n E : Nat} (hq : q.Shapes n E) (hE : 0 < E) {a : MixBlockP (NdArray α)} {t : MixBlockP (List Nat → α)} (ha : a.IsTorch n E t)
    {x : MixBlockP (List Nat → α)} {s : Store α} (hx : List.Forall₂ (fun m x => m.value.Holds s x) q.toList x.toList) :
    All3 (fun m p x => ∃ y, MixBack m.value p.shape x y ∧ m.value.Holds s y) q.toList a.toList x.toNNTile.toList := by
  simp only [MixBlockP.Shapes, MixBlockP.toList, List.map_cons, List.map_nil, List.cons.injEq, and_true] at hq
  obtain ⟨c1, c2, c3, c4, c5, c6, c7, c8⟩ := hq
  simp only [MixBlockP.toList, List.forall₂_cons, List.forall₂_nil_left_iff] at hx
  obtain ⟨d1, d2, d3, d4, d5, d6, d7, d8, -⟩ := hx
  refine .cons ⟨_, ?_, d1⟩ (.cons ⟨_, ?_, d2⟩ (.cons ⟨_, ?_, d3⟩ (.cons ⟨_, ?_, d4⟩ (.cons ⟨_, ?_, d5⟩ (.cons ⟨_, ?_, d6⟩ (.cons ⟨_, ?_, d7⟩ (.cons ⟨_, ?_, d8⟩ .nil)))))))
  · rw [ha.g1.1]; exact .same (by simp) c1
  · rw [ha.b1.1]; exact .same (by simp) c2
  · rw [ha.u1.1]; exact .same (by simp) c3
  · rw [ha.u2.1]; exact .same (by simp) c4
  · rw [ha.g2.1]; exact .same (by simp) c5
  · rw [ha.b2.1]; exact .same (by simp) c6
  · rw [ha.v1.1]; exact .swap c7 (by omega)
  · rw [ha.v2.1]; exact .swap c8 (by omega)

theorem MixBlockP.is_back {n E : Nat} {a : MixBlockP (NdArray α)} {t : MixBlockP (List Nat → α)} (ha : a.IsTorch n E t) {x : MixBlockP (List Nat → α)} {l : List (NdArray α)}
    (h : All3 (fun b p x => b.Is p.shape x) l a.toList x.toList) : ∃ b : MixBlockP (NdArray α), l = b.toList ∧ b.IsTorch n E x := by
  rcases h with _ | ⟨h1, _ | ⟨h2, _ | ⟨h3, _ | ⟨h4, _ | ⟨h5, _ | ⟨h6, _ | ⟨h7, _ | ⟨h8, _ | _⟩⟩⟩⟩⟩⟩⟩⟩
  refine ⟨⟨_, _, _, _, _, _, _, _⟩, rfl, ?_⟩
  rw [ha.g1.1] at h1
  rw [ha.b1.1] at h2
  rw [ha.u1.1] at h3
  rw [ha.u2.1] at h4
  rw [ha.g2.1] at h5
  rw [ha.b2.1] at h6
  rw [ha.v1.1] at h7
  rw [ha.v2.1] at h8
  exact ⟨h1, h2, h3, h4, h5, h6, h7, h8⟩

theorem mixBlocks_length {P : Type} (l : List (MixBlockP P)) : (l.flatMap MixBlockP.toList).length = 8 * l.length := by
  induction l with
  | nil => rfl
  | cons b l ih => rw [List.flatMap_cons, List.length_append, ih, List.length_cons]; change 8 + _ = _; ring

theorem MixP.toList_length {P : Type} (p : MixP P) : p.toList.length = 8 * p.blocks.length + 2 := by
  rw [MixP.toList, List.length_cons, List.length_append, mixBlocks_length, List.length_singleton]

theorem MixBlockP.is_back_all {n E : Nat} : ∀ {as : List (MixBlockP (NdArray α))} {ts : List (MixBlockP (List Nat → α))} {xs : List (MixBlockP (List Nat → α))} {l : List (NdArray α)},
    List.Forall₂ (fun a t => a.IsTorch n E t) as ts → as.length = xs.length → All3 (fun b p x => b.Is p.shape x) l (as.flatMap MixBlockP.toList) (xs.flatMap MixBlockP.toList) →
    ∃ bs : List (MixBlockP (NdArray α)), l = bs.flatMap MixBlockP.toList ∧ List.Forall₂ (fun a t => a.IsTorch n E t) bs xs
  | [], _, [], _, .nil, _, .nil => ⟨[], rfl, .nil⟩
  | [], _, _ :: _, _, _, hl, _ => by simp at hl
  | _ :: _, _, [], _, _, hl, _ => by simp at hl
  | a :: as, _ :: _, x :: xs, l, .cons h1 h2, hl, h => by
    rw [List.flatMap_cons, List.flatMap_cons] at h
    obtain ⟨l1, l2, rfl, h3, h4⟩ := h.split rfl
    obtain ⟨b, rfl, h5⟩ := MixBlockP.is_back h1 h3
    obtain ⟨bs, rfl, h6⟩ := MixBlockP.is_back_all h2 (by simpa using hl) h4
    exact ⟨b :: bs, rfl, .cons h5 h6⟩

theorem MixP.is_back {n q E C : Nat} {a : MixP (NdArray α)} {t : MixP (List Nat → α)} (ha : a.IsTorch n q E C t) {x : MixP (List Nat → α)} (hl : a.blocks.length = x.blocks.length)
    {l : List (NdArray α)} (h : All3 (fun b p x => b.Is p.shape x) l a.toList x.toList) : ∃ b : MixP (NdArray α), l = b.toList ∧ b.IsTorch n q E C x := by
  rw [MixP.toList, MixP.toList] at h
  cases h with
  | cons h1 h =>
    obtain ⟨l1, l2, rfl, h2, h3⟩ := h.split (by rw [mixBlocks_length, mixBlocks_length, hl])
    obtain ⟨bs, rfl, h4⟩ := MixBlockP.is_back_all ha.blocks hl h2
    rcases h3 with _ | ⟨h5, _ | _⟩
    refine ⟨⟨_, bs, _⟩, rfl, ?_⟩
    rw [ha.w.1] at h1
    rw [ha.wc.1] at h5
    exact ⟨h1, h4, h5⟩

theorem MixBlockP.backs_all [FP α] {n E : Nat} (hE : 0 < E) {s : Store α} : ∀ {qs : List (MixBlockP Moments)} {as : List (MixBlockP (NdArray α))} {ts : List (MixBlockP (List Nat → α))}
    {xs : List (MixBlockP (List Nat → α))}, (∀ q ∈ qs, q.Shapes n E) → List.Forall₂ (fun a t => a.IsTorch n E t) as ts → qs.length = as.length → xs.length = qs.length →
    List.Forall₂ (fun m x => m.value.Holds s x) (qs.flatMap MixBlockP.toList) (xs.flatMap MixBlockP.toList) →
    All3 (fun m p x => ∃ y, MixBack m.value p.shape x y ∧ m.value.Holds s y) (qs.flatMap MixBlockP.toList) (as.flatMap MixBlockP.toList) ((xs.map MixBlockP.toNNTile).flatMap MixBlockP.toList)
  | [], _, _, [], _, .nil, _, _, _ => .nil
  | [], _, _, _ :: _, _, _, _, hl, _ => by simp at hl
  | _ :: _, _, _, [], _, _, _, hl, _ => by simp at hl
  | [], _, _, _, _, .cons _ _, hl, _, _ => by simp at hl
  | _ :: _, _, _, _, _, .nil, hl, _, _ => by simp at hl
  | q :: qs, _, _, x :: xs, hq, .cons h1 h2, hl, hl', hx => by
    simp only [List.flatMap_cons, List.map_cons] at hx ⊢
    have hx1 := List.forall₂_take q.toList.length hx
    have hx2 := List.forall₂_drop q.toList.length hx
    rw [List.take_left, show q.toList.length = x.toList.length from rfl, List.take_left] at hx1
    rw [List.drop_left, show q.toList.length = x.toList.length from rfl, List.drop_left] at hx2
    exact (MixBlockP.backs (hq q (by simp)) hE h1 hx1).append
      (MixBlockP.backs_all hE (fun q' h => hq q' (List.mem_cons_of_mem _ h)) h2 (by simpa using hl) (by simpa using hl') hx2)

theorem MixP.backs [FP α] {p : MixP Moments} {n q E C : Nat} (hp : p.Shapes n q E C) (hE : 0 < E) {a : MixP (NdArray α)} {t : MixP (List Nat → α)} (ha : a.IsTorch n q E C t)
    (hl : p.blocks.length = a.blocks.length) {s : Store α} {x : MixP (List Nat → α)} (hx : p.Hold s x) {w : List Nat → α} (hw : MixBack p.w.value a.w.shape w x.w) :
    All3 (fun m p x => ∃ y, MixBack m.value p.shape x y ∧ m.value.Holds s y) p.toList a.toList ({x.toNNTile with w := w} : MixP _).toList := by
  have hlx : x.blocks.length = p.blocks.length := by
    have := hx.length_eq
    rw [MixP.toList_length, MixP.toList_length] at this
    omega
  rw [MixP.Hold, MixP.toList, MixP.toList, List.forall₂_cons] at hx
  obtain ⟨h1, hx⟩ := hx
  have e : (p.blocks.flatMap MixBlockP.toList).length = (x.blocks.flatMap MixBlockP.toList).length := by rw [mixBlocks_length, mixBlocks_length, hlx]
  have hx1 := List.forall₂_take (p.blocks.flatMap MixBlockP.toList).length hx
  have hx2 := List.forall₂_drop (p.blocks.flatMap MixBlockP.toList).length hx
  rw [List.take_left, e, List.take_left] at hx1
  rw [List.drop_left, e, List.drop_left, List.forall₂_cons] at hx2
  refine .cons ⟨_, hw, h1⟩ ((MixBlockP.backs_all hE hp.2.1 ha.blocks hl hlx hx1).append (.cons ⟨_, ?_, hx2.1⟩ .nil))
  rw [ha.wc.1]
  exact .same (by simp) hp.2.2

end NNTile
