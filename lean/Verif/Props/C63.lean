import Verif.Lib.MixerMath
import Verif.Lib.MixerLoad
import Verif.Props.C61
import Verif.Props.C62
/-!
# C63: `MlpMixer.from_torch` gives a model which computes what the PyTorch model computes

This holds if the size of the patches and that of the vectors which describe them are different (`_partial`). If they are the same, the matrix of the projection is loaded without being transposed, as
`from_torch` decides by the first sizes of the arrays, and the model computes something else (`C63_square`, `C63_square_differs`).
-/
namespace NNTile
variable {k n B q E C next : Nat} {invalidate : Bool}

theorem mixBlocks_inj {P : Type} : ∀ {l l' : List (MixBlockP P)} {r r' : List P}, l.length = l'.length → l.flatMap MixBlockP.toList ++ r = l'.flatMap MixBlockP.toList ++ r' → l = l' ∧ r = r'
  | [], [], _, _, _, h => ⟨rfl, h⟩
  | [], _ :: _, _, _, hl, _ => by simp at hl
  | _ :: _, [], _, _, hl, _ => by simp at hl
  | b :: l, b' :: l', r, r', hl, h => by
    rw [List.flatMap_cons, List.flatMap_cons, List.append_assoc, List.append_assoc] at h
    simp only [MixBlockP.toList, List.cons_append, List.nil_append, List.cons.injEq] at h
    obtain ⟨h1, h2, h3, h4, h5, h6, h7, h8, h⟩ := h
    obtain ⟨rfl, rfl⟩ := mixBlocks_inj (l := l) (l' := l') (by simpa using hl) h
    refine ⟨?_, rfl⟩
    cases b
    cases b'
    simp_all

theorem MixP.ext_toList {P : Type} {p q : MixP P} (hl : p.blocks.length = q.blocks.length) (h : p.toList = q.toList) : p = q := by
  rw [MixP.toList, MixP.toList, List.cons.injEq] at h
  obtain ⟨h1, h2⟩ := h
  obtain ⟨h3, h4⟩ := mixBlocks_inj hl h2
  cases p
  cases q
  simp_all

theorem MixP.toList_map {P Q : Type} (f : P → Q) (p : MixP P) : (p.map f).toList = p.toList.map f := by
  simp [MixP.toList, MixP.map, MixBlockP.toList, MixBlockP.map, List.map_flatMap, List.flatMap_map]

/-- With given contents of the parameters and of the input, `forward_async` computes the output for them. -/
theorem mix_forward_hold {x : Moments} {tB tq next' : Nat} {m : MlpMixer ℝ} {ts : List (Task1 ℝ)} {p : MixP Moments} {out : Moments} (h : MixArgs x n B q E C k tB tq next)
    (he : mlpMixer x E k C next = .ok (m, ts, next')) (hh : m.Has k p out) {s : Store ℝ} (hn : (netIds (x :: p.toList) (m.net invalidate)).Nodup)
    (hr : NetReady (x :: p.toList) (m.net invalidate) s) {y : MixP (List Nat → ℝ)} (hy : p.Hold s y) {v : List Nat → ℝ} (hv : x.value.Holds s v) :
    Runs m.forwardAsync s (fwdIds (m.net invalidate)) (fun s' => out.value.Holds s' (mixOut n q E y v)) := by
  have hl : p.toList.length = y.toList.length := hy.length_eq
  have hd := ids_nodup hn
  have hlen : p.blocks.length = y.blocks.length := by
    rw [MixP.toList_length, MixP.toList_length] at hl
    omega
  obtain ⟨env, hev⟩ := exists_env (L := (x.value.id, v) :: List.zip (p.toList.map fun m => m.value.id) y.toList) (by
    rw [List.map_cons, List.map_fst_zip (by rw [List.length_map, hl])]
    exact hd)
  have hx : env x.value.id = v := hev (x.value.id, v) (by simp)
  have hp : (p.map fun m => env m.value.id) = y := by
    refine MixP.ext_toList ?_ ?_
    · simpa [MixP.map] using hlen
    · rw [MixP.toList_map]
      refine List.ext_getElem (by rw [List.length_map, hl]) fun i h1 h2 => ?_
      rw [List.getElem_map]
      refine hev (p.toList[i].value.id, y.toList[i]) (List.mem_cons_of_mem _ ?_)
      rw [List.length_map] at h1
      exact List.mem_iff_getElem.2 ⟨i, by simp [List.length_zip, h1, h2], by simp⟩
  have key := (C62_forward (invalidate := invalidate) h he hh (env := env) hr (by
    intro r hr'
    rcases List.mem_cons.1 hr' with rfl | hr'
    · rw [hx]; exact hv
    · obtain ⟨i, hi, rfl⟩ := List.mem_iff_getElem.1 hr'
      have h2 : i < y.toList.length := by rw [← hl]; exact hi
      have e := hev (p.toList[i].value.id, y.toList[i]) (List.mem_cons_of_mem _ (List.mem_iff_getElem.2 ⟨i, by simp [List.length_zip, hi, h2], by simp⟩))
      dsimp only at e
      rw [e]
      have := (List.forall₂_iff_get.1 hy).2 i hi h2
      simpa using this)).1
  rw [hp, hx] at key
  exact key.imp (fun _ h => h) fun _ _ h => h.1

theorem mix_norms_mem {p : MixP Moments} {r : Moments × Moments} (hr : r ∈ p.norms) : r.1 ∈ p.toList ∧ r.2 ∈ p.toList := by
  simp only [MixP.norms, List.mem_flatMap] at hr
  obtain ⟨b, hb, hr⟩ := hr
  simp only [MixP.toList, List.mem_cons, List.mem_append, List.mem_flatMap]
  simp only [MixBlockP.norms, List.mem_cons, List.not_mem_nil, or_false] at hr
  rcases hr with rfl | rfl
  · exact ⟨.inr (.inl ⟨b, hb, by simp [MixBlockP.toList]⟩), .inr (.inl ⟨b, hb, by simp [MixBlockP.toList]⟩)⟩
  · exact ⟨.inr (.inl ⟨b, hb, by simp [MixBlockP.toList]⟩), .inr (.inl ⟨b, hb, by simp [MixBlockP.toList]⟩)⟩

theorem mixSizes_eq {α : Type} {a : MixP (NdArray α)} {t : MixP (List Nat → α)} (ha : a.IsTorch n q E C t) (hk : 0 < a.blocks.length) : mixSizes a.toList = .ok ⟨a.blocks.length, E, q, n⟩ := by
  have hlen := a.toList_length
  obtain ⟨w, blocks, wc⟩ := a
  obtain ⟨tw, tblocks, twc⟩ := t
  obtain ⟨h1, h2, h3⟩ := ha
  dsimp only at h2
  cases blocks with
  | nil => simp at hk
  | cons b bs =>
    cases h2 with
    | cons hb _ =>
      have e1 := h1.1
      have e2 := hb.u1.1
      dsimp only at e1
      rw [mixSizes]
      dsimp only
      rw [hlen]
      change (Except.ok w >>= fun p0 => pyIndex p0.shape 0 >>= fun hidden => pyIndex p0.shape 1 >>= fun pixels => Except.ok b.u1 >>= fun p3 => pyIndex p3.shape 1 >>= fun patches => _) = _
      rw [M.bind_ok, e1, pyIndex_zero, M.bind_ok, pyIndex_one, M.bind_ok, M.bind_ok, e2, pyIndex_one, M.bind_ok]
      congr 2
      dsimp only
      rw [show (((8 * (b :: bs).length + 2 : Nat) : Int) - 2) = ((b :: bs).length : Int) * 8 by push_cast; ring]
      exact Int.mul_tdiv_cancel _ (by decide)

/-- `from_torch` and `forward_async`, if the projection gets the elements `w`. -/
theorem mix_from_torch (hn0 : 0 < n) (hB : 0 < B) (hq : 0 < q) (hE : 0 < E) (hC : 0 < C) {a : MixP (NdArray ℝ)} {t : MixP (List Nat → ℝ)} (ha : a.IsTorch n q E C t)
    (hk : 0 < a.blocks.length) (next : Nat) {w : List Nat → ℝ} (hw : ∀ T : Tensor, T.shape = [q, E] → MixPair T a.w t.w w) :
    ∃ (g : TorchedMixer ℝ) (p : MixP Moments) (out : Moments), mixFromTorchInit a.toList B C next = .ok g ∧ g.x = ⟨next, [n, B, q], [n, B, q]⟩ ∧
      g.next = next + 48 * a.blocks.length + 17 ∧ g.model.Has a.blocks.length p out ∧ p.Shapes n q E C ∧ out.value.shape = [C, B] ∧
      (let given : List Moments := ⟨g.x, g.x, false⟩ :: p.toList
      let net := g.model.net invalidate
      (netIds given net).Nodup ∧ (∀ i ∈ netIds given net, i < g.next) ∧ (∃ s, NetReady given net s) ∧
      ∀ (tmpId : Nat) (s : Store ℝ), tmpId ∉ netIds given net → NetReady given net s → ∃ s1, mixFromTorchLoad g a.toList tmpId s = .ok s1 ∧ NetReady given net s1 ∧
        p.Hold s1 {t.toNNTile with w := w} ∧
        ∀ (s2 : Store ℝ) (x : List Nat → ℝ), OnlyChanged [g.x.id, tmpId] s1 s2 → g.x.Ready s2 → g.x.Holds s2 x →
          Runs g.model.forwardAsync s2 (fwdIds net) (fun s3 => out.value.Holds s3 (mixOut n q E {t.toNNTile with w := w} x))) := by
  have wx : newTensor next [n, B, q] [n, B, q] = .ok ⟨next, [n, B, q], [n, B, q]⟩ := newTensor_ok (by simp [Pos, *])
  set x : Tensor := ⟨next, [n, B, q], [n, B, q]⟩ with hxd
  have hA : MixArgs ⟨x, x, false⟩ n B q E C a.blocks.length B q (next + 1) :=
    ⟨rfl, rfl, ⟨by simp [Tensor.WF, Pos, hxd, *], rfl, rfl⟩, by simp [Moments.ids, Moments.gradIds], by simp [Moments.ids, Moments.gradIds, hxd], hE, hC, hk⟩
  obtain ⟨m, ts, p, out, e, hh, hs, ho, -, hln, hnd, hlt, -, hus, htm⟩ := C62_constructor hA invalidate
  refine ⟨⟨x, m, ts, next + 48 * a.blocks.length + 17⟩, p, out, ?_, rfl, rfl, hh, hs, ho, ?_⟩
  · rw [mixFromTorchInit, mixSizes_eq ha hk, M.bind_ok]
    dsimp only
    rw [wx, M.bind_ok, e, M.bind_ok]
    dsimp only
    rw [show next + 1 + 48 * a.blocks.length + 16 = next + 48 * a.blocks.length + 17 by omega]
  intro given net
  have pmem : ∀ m ∈ p.toList, m ∈ given := fun m hm => List.mem_cons_of_mem _ hm
  have xmem : (⟨x, x, false⟩ : Moments) ∈ given := List.mem_cons_self ..
  have hids := ids_nodup hnd
  rw [List.map_cons, List.nodup_cons] at hids
  have hxne : ∀ m ∈ p.toList, x.id ≠ m.value.id := fun m hm h => hids.1 (h ▸ List.mem_map_of_mem hm)
  refine ⟨hnd, fun i hi => ?_, ?_, ?_⟩
  · have := hlt i hi
    dsimp only
    omega
  · obtain ⟨s, hs, -⟩ := C62_registered (invalidate := invalidate) hA e hh (fun _ _ => 0) (fun _ _ => 0)
    exact ⟨s, hs⟩
  intro tmpId s htmp hr
  have ht : ∀ m ∈ given, tmpId ≠ m.value.id := fun m hm h => htmp (h ▸ mem_netIds hm)
  obtain ⟨sa, ea, oa, va⟩ := hln s (fun r hr' => ⟨(hr.1 _ (List.mem_append_left _ (pmem _ (mix_norms_mem hr').1))).1, (hr.1 _ (List.mem_append_left _ (pmem _ (mix_norms_mem hr').2))).1⟩)
  have hra : NetReady given net sa := hr.keep hnd oa (by
    intro i hi
    simp only [List.mem_cons, List.mem_flatMap, List.not_mem_nil, or_false] at hi
    obtain ⟨r, hr', rfl | rfl⟩ := hi
    · exact .inr ⟨_, pmem _ (mix_norms_mem hr').1, rfl, (va r hr').2.2.1⟩
    · exact .inr ⟨_, pmem _ (mix_norms_mem hr').2, rfl, (va r hr').2.2.2⟩)
  obtain ⟨sb, eb, vb, rb, ob⟩ := mixLoads_spec (tmpId := tmpId) (MixP.pairs hs hE ha hh.blocks (hw _ hs.1)) hids.2 (fun m hm => ht m (pmem m hm)) (s := sa)
    (fun m hm => (hra.1 m (List.mem_append_left _ (pmem m hm))).1)
  have hrb : NetReady given net sb := hra.keep hnd ob (by
    intro i hi
    rcases List.mem_cons.1 hi with rfl | hi
    · exact .inl htmp
    · obtain ⟨m, hm, rfl⟩ := List.mem_map.1 hi
      exact .inr ⟨m, pmem m hm, rfl, rb m hm⟩)
  refine ⟨sb, ?_, hrb, vb, ?_⟩
  · rw [mixFromTorchLoad]
    dsimp only
    rw [ea, M.bind_ok, hh.params, eb]
  intro s2 v o2 r2 v2
  have hr2 : NetReady given net s2 := hrb.keep hnd o2 (by
    intro i hi
    simp only [List.mem_cons, List.not_mem_nil, or_false] at hi
    rcases hi with rfl | rfl
    · exact .inr ⟨_, xmem, rfl, r2⟩
    · exact .inl htmp)
  refine mix_forward_hold hA e hh hnd hr2 ?_ v2
  have key : ∀ {ms : List Moments} {ys : List (List Nat → ℝ)}, List.Forall₂ (fun m y => m.value.Holds sb y) ms ys → (∀ m ∈ ms, m ∈ p.toList) →
      List.Forall₂ (fun m y => m.value.Holds s2 y) ms ys := by
    intro ms ys h hm
    induction h with
    | nil => exact .nil
    | cons h _ ih =>
      refine .cons (o2.holds h ?_) (ih fun m' hm' => hm m' (List.mem_cons_of_mem _ hm'))
      have h1 := hm _ (List.mem_cons_self ..)
      simp only [List.mem_cons, List.not_mem_nil, or_false, not_or]
      exact ⟨Ne.symm (hxne _ h1), Ne.symm (ht _ (pmem _ h1))⟩
  exact key vb fun _ h => h

/-- **The two models.** With the contents `t.toNNTile` of the parameters the output of the NNTile model, as C62 describes it, is that of the PyTorch model. -/
theorem C63_function (t : MixP (List Nat → ℝ)) (x : List Nat → ℝ) (b c : Nat) :
    mixOut n q E t.toNNTile x [c, b] = torchMixer n q E t (fun p b e => x [p, b, e]) b c := mix_same n q E t x b c

/-- **`from_torch`, then `forward_async`.** For every PyTorch model with at least one mixer layer, in which the size `q` of the patches and the size `E` of the vectors which describe them are not
the same: `from_torch` succeeds, and after it, whatever images `x` are put into the input, `forward_async` leaves in the last activation the (transposed) output of the PyTorch model. Missing: `q = E`,
where this is false. -/
theorem C63_from_torch_partial (hne : q ≠ E) (hn0 : 0 < n) (hB : 0 < B) (hq : 0 < q) (hE : 0 < E) (hC : 0 < C) {a : MixP (NdArray ℝ)} {t : MixP (List Nat → ℝ)}
    (ha : a.IsTorch n q E C t) (hk : 0 < a.blocks.length) (next : Nat) :
    ∃ (g : TorchedMixer ℝ) (p : MixP Moments) (out : Moments), mixFromTorchInit a.toList B C next = .ok g ∧ g.x = ⟨next, [n, B, q], [n, B, q]⟩ ∧
      g.next = next + 48 * a.blocks.length + 17 ∧ g.model.Has a.blocks.length p out ∧ p.Shapes n q E C ∧ out.value.shape = [C, B] ∧
      (let given : List Moments := ⟨g.x, g.x, false⟩ :: p.toList
      let net := g.model.net invalidate
      (netIds given net).Nodup ∧ (∀ i ∈ netIds given net, i < g.next) ∧ (∃ s, NetReady given net s) ∧
      ∀ (tmpId : Nat) (s : Store ℝ), tmpId ∉ netIds given net → NetReady given net s → ∃ s1, mixFromTorchLoad g a.toList tmpId s = .ok s1 ∧ NetReady given net s1 ∧
        p.Hold s1 t.toNNTile ∧
        ∀ (s2 : Store ℝ) (x : List Nat → ℝ), OnlyChanged [g.x.id, tmpId] s1 s2 → g.x.Ready s2 → g.x.Holds s2 x →
          Runs g.model.forwardAsync s2 (fwdIds net) (fun s3 => out.value.Holds s3 (fun I => torchMixer n q E t (fun p b e => x [p, b, e]) (I.getD 1 0) (I.getD 0 0)))) := by
  obtain ⟨g, p, out, e, h1, h2, h3, h4, h5, h6, h6', h7, h8⟩ := mix_from_torch (invalidate := invalidate) hn0 hB hq hE hC ha hk next (fun T hT => MixPair.swap ha.w hT hne)
  refine ⟨g, p, out, e, h1, h2, h3, h4, h5, h6, h6', h7, fun tmpId s ht hr => ?_⟩
  obtain ⟨s1, e1, r1, v1, hf⟩ := h8 tmpId s ht hr
  refine ⟨s1, e1, r1, v1, fun s2 x o2 r2 v2 => (hf s2 x o2 r2 v2).imp (fun _ h => h) fun s3 _ h => ?_⟩
  refine holds_congr h fun I hI => ?_
  rw [h5] at hI
  obtain ⟨c, b, rfl⟩ := List.length_eq_two.1 hI.length
  exact C63_function t x b c

/-- **The same sizes.** If patches and vectors have the same size, `from_torch` succeeds as well, but `forward_async` then computes the PyTorch model whose matrix of the projection is transposed. -/
theorem C63_square (hn0 : 0 < n) (hB : 0 < B) (hE : 0 < E) (hC : 0 < C) {a : MixP (NdArray ℝ)} {t : MixP (List Nat → ℝ)} (ha : a.IsTorch n E E C t) (hk : 0 < a.blocks.length)
    (next : Nat) :
    ∃ (g : TorchedMixer ℝ) (p : MixP Moments) (out : Moments), mixFromTorchInit a.toList B C next = .ok g ∧ g.x = ⟨next, [n, B, E], [n, B, E]⟩ ∧ g.model.Has a.blocks.length p out ∧
      out.value.shape = [C, B] ∧
      (let given : List Moments := ⟨g.x, g.x, false⟩ :: p.toList
      let net := g.model.net invalidate
      (∃ s, NetReady given net s) ∧
      ∀ (tmpId : Nat) (s : Store ℝ), tmpId ∉ netIds given net → NetReady given net s → ∃ s1, mixFromTorchLoad g a.toList tmpId s = .ok s1 ∧ NetReady given net s1 ∧
        ∀ (s2 : Store ℝ) (x : List Nat → ℝ), OnlyChanged [g.x.id, tmpId] s1 s2 → g.x.Ready s2 → g.x.Holds s2 x →
          Runs g.model.forwardAsync s2 (fwdIds net) (fun s3 => out.value.Holds s3 (fun I =>
            torchMixer n E E {t with w := swap2 t.w} (fun p b e => x [p, b, e]) (I.getD 1 0) (I.getD 0 0)))) := by
  obtain ⟨g, p, out, e, h1, h2, h3, h4, h5, h6, h6', h7, h8⟩ := mix_from_torch (invalidate := invalidate) hn0 hB hE hE hC ha hk next (fun T hT => MixPair.same ha.w (by simp) hT)
  refine ⟨g, p, out, e, h1, h3, h5, h7, fun tmpId s ht hr => ?_⟩
  obtain ⟨s1, e1, r1, v1, hf⟩ := h8 tmpId s ht hr
  refine ⟨s1, e1, r1, fun s2 x o2 r2 v2 => (hf s2 x o2 r2 v2).imp (fun _ h => h) fun s3 _ h => ?_⟩
  refine holds_congr h fun I hI => ?_
  rw [h5] at hI
  obtain ⟨c, b, rfl⟩ := List.length_eq_two.1 hI.length
  refine Eq.trans ?_ (C63_function {t with w := swap2 t.w} x b c)
  simp only [mixOut, MixP.toNNTile, mixClassify]
  refine Finset.sum_congr rfl fun e _ => ?_
  congr 2

theorem foldl_id {P : Type} {f : Hidden → P → Hidden} : ∀ {l : List P} {x : Hidden}, (∀ b ∈ l, ∀ y, f y b = y) → l.foldl f x = x
  | [], _, _ => rfl
  | b :: l, x, h => by rw [List.foldl_cons, h b (by simp), foldl_id fun b' h' => h b' (List.mem_cons_of_mem _ h')]

/-- A PyTorch model with one patch of two elements and one mixer layer, which does not change its argument; the projection moves the second element to the first place. -/
def squareTorch : MixP (List Nat → ℝ) :=
  ⟨fun I => if I = [0, 1] then 1 else 0, [⟨fun _ => 1, fun _ => 0, fun _ => 0, fun _ => 0, fun _ => 1, fun _ => 0, fun _ => 0, fun _ => 0⟩], fun I => if I = [0, 0] then 1 else 0⟩

/-- **It is another function.** There is a PyTorch model and an image for which the output which `forward_async` computes by `C63_square` is not the output of the PyTorch model. -/
theorem C63_square_differs : ∃ (t : MixP (List Nat → ℝ)) (a : MixP (NdArray ℝ)) (x : Hidden), a.IsTorch 1 2 2 1 t ∧ 0 < a.blocks.length ∧
    torchMixer 1 2 2 {t with w := swap2 t.w} x 0 0 ≠ torchMixer 1 2 2 t x 0 0 := by
  refine ⟨squareTorch, ⟨ndOf _ _, [⟨ndOf _ _, ndOf _ _, ndOf _ _, ndOf _ _, ndOf _ _, ndOf _ _, ndOf _ _, ndOf _ _⟩], ndOf _ _⟩, fun _ _ e => if e = 1 then 1 else 0,
    ⟨ndOf_is _ _, .cons ⟨ndOf_is _ _, ndOf_is _ _, ndOf_is _ _, ndOf_is _ _, ndOf_is _ _, ndOf_is _ _, ndOf_is _ _, ndOf_is _ _⟩ .nil, ndOf_is _ _⟩, by simp, ?_⟩
  have h : ∀ (y : Hidden), ∀ b ∈ squareTorch.blocks, torchMixerLayer 1 2 y b = y := by
    intro y b hb
    obtain rfl := List.mem_singleton.1 hb
    funext p b e
    simp [torchMixerLayer, torchFn, torchLinear, torchSwap]
  have e1 : ∀ w x, torchMixer 1 2 2 {squareTorch with w := w} x 0 0 = x 0 0 0 * w [0, 0] + x 0 0 1 * w [0, 1] := by
    intro w x
    rw [torchMixer]
    dsimp only
    rw [foldl_id fun b hb y => h y b hb]
    simp [torchLinear, Finset.sum_range_succ, squareTorch]
  rw [e1, show squareTorch = {squareTorch with w := squareTorch.w} from rfl, e1]
  simp [swap2, squareTorch]

/-! ### What is rejected -/

/-- A PyTorch model without mixer layers is rejected. -/
theorem C63_no_layers {a : MixP (NdArray ℝ)} {t : MixP (List Nat → ℝ)} (ha : a.IsTorch n q E C t) (hk : a.blocks = []) : Throws (mixFromTorchInit a.toList B C next) := by
  obtain ⟨w, blocks, wc⟩ := a
  dsimp only at hk
  subst hk
  have e1 := ha.w.1
  dsimp only at e1
  refine Throws.bind ?_
  rw [mixSizes]
  change Throws (Except.ok w >>= fun p0 => pyIndex p0.shape 0 >>= fun hidden => pyIndex p0.shape 1 >>= fun pixels => Except.error (.throw "UnboundLocalError") >>= fun p3 => _)
  rw [M.bind_ok, e1, pyIndex_zero, M.bind_ok, pyIndex_one, M.bind_ok]
  exact ⟨_, rfl⟩

theorem mixLoads_append {α : Type} {tmpId : Nat} : ∀ {ms ms' : List Moments} {ps ps' : List (NdArray α)} {s : Store α}, ms.length = ps.length →
    mixLoads tmpId (ms ++ ms') (ps ++ ps') s = (mixLoads tmpId ms ps s >>= mixLoads tmpId ms' ps')
  | [], _, [], _, _, _ => by
    rw [List.nil_append, List.nil_append, show mixLoads tmpId [] ([] : List (NdArray α)) _ = .ok _ from rfl, M.bind_ok]
  | [], _, _ :: _, _, _, h => by simp at h
  | _ :: _, _, [], _, _, h => by simp at h
  | m :: ms, ms', p :: ps, ps', s, h => by
    rw [List.cons_append, List.cons_append, mixLoads, mixLoads, bind_assoc]
    congr 1
    funext s'
    exact mixLoads_append (by simpa using h)

/-- Another number of classes than that of the PyTorch model is rejected, when the last parameter is loaded. -/
theorem C63_classes {C' : Nat} (hc : C' ≠ C) (hE : 0 < E) {p : MixP Moments} (hs : p.Shapes n q E C') {a : MixP (NdArray ℝ)} {t : MixP (List Nat → ℝ)} (ha : a.IsTorch n q E C t)
    (hl : p.blocks.length = a.blocks.length) {tmpId : Nat} (hn : (p.toList.map fun m => m.value.id).Nodup) (ht : ∀ m ∈ p.toList, tmpId ≠ m.value.id) {s : Store ℝ}
    (hr : ∀ m ∈ p.toList, m.value.Ready s) : Throws (mixLoads tmpId p.toList a.toList s) := by
  have hw : ∃ w, MixPair p.w.value a.w t.w w := by
    by_cases h : q = E
    · subst h
      exact ⟨_, .same ha.w (by simp) hs.1⟩
    · exact ⟨_, .swap ha.w hs.1 h⟩
  obtain ⟨w, hw⟩ := hw
  have hall := (All3.cons ⟨_, hw⟩ (MixBlockP.pairs_all hE hs.2.1 ha.blocks hl) : All3 (fun (m : Moments) p y => ∃ x, MixPair m.value p x y) _ _ _)
  have ep : p.toList = (p.w :: p.blocks.flatMap MixBlockP.toList) ++ [p.wc] := rfl
  have ea : a.toList = (a.w :: a.blocks.flatMap MixBlockP.toList) ++ [a.wc] := rfl
  rw [ep] at hn ht hr ⊢
  rw [ea, mixLoads_append (by rw [List.length_cons, List.length_cons, mixBlocks_length, mixBlocks_length, hl])]
  rw [List.map_append, List.nodup_append] at hn
  obtain ⟨s', e, -⟩ := mixLoads_spec (tmpId := tmpId) hall hn.1 (fun m hm => ht m (List.mem_append_left _ hm)) (s := s) (fun m hm => hr m (List.mem_append_left _ hm))
  rw [e, M.bind_ok, mixLoads]
  refine Throws.bind ?_
  rw [mixLoad, mixTransposed_eq (by rw [hs.2.2]; simp) (by rw [ha.wc.1]; simp), M.bind_ok, hs.2.2, ha.wc.1]
  rw [if_pos (by simpa using hc)]
  refine (C46_rejects ?_).2
  rw [if_neg (by rw [hs.2.2]; simp), hs.2.2, NdArray.toF]
  change a.wc.shape.reverse ≠ _
  rw [ha.wc.1]
  intro h
  simp only [List.reverse_cons, List.reverse_nil, List.nil_append, List.cons_append, List.cons.injEq, and_true] at h
  omega

/-! ### The hypotheses can be met -/

/-- Every PyTorch model with two mixer layers, three patches of five elements, vectors of size 4 and 2 classes is loaded, for batches of 6 images. -/
example (t : MixP (List Nat → ℝ)) (h : t.blocks.length = 2) : ∃ (a : MixP (NdArray ℝ)) (g : TorchedMixer ℝ) (p : MixP Moments) (s s1 : Store ℝ), a.IsTorch 3 5 4 2 t ∧
    mixFromTorchInit a.toList 6 2 0 = .ok g ∧ g.model.parameters = p.toList ∧ mixFromTorchLoad g a.toList g.next s = .ok s1 ∧ p.Hold s1 t.toNNTile := by
  have ha : ∃ a : MixP (NdArray ℝ), a.IsTorch 3 5 4 2 t := by
    have : ∀ ts : List (MixBlockP (List Nat → ℝ)), ∃ as : List (MixBlockP (NdArray ℝ)), List.Forall₂ (fun a t => a.IsTorch 3 4 t) as ts := by
      intro ts
      induction ts with
      | nil => exact ⟨[], .nil⟩
      | cons t ts ih =>
        obtain ⟨as, h⟩ := ih
        exact ⟨⟨ndOf _ _, ndOf _ _, ndOf _ _, ndOf _ _, ndOf _ _, ndOf _ _, ndOf _ _, ndOf _ _⟩ :: as,
          .cons ⟨ndOf_is _ _, ndOf_is _ _, ndOf_is _ _, ndOf_is _ _, ndOf_is _ _, ndOf_is _ _, ndOf_is _ _, ndOf_is _ _⟩ h⟩
    obtain ⟨as, h⟩ := this t.blocks
    exact ⟨⟨ndOf _ _, as, ndOf _ _⟩, ndOf_is _ _, h, ndOf_is _ _⟩
  obtain ⟨a, ha⟩ := ha
  have hl : a.blocks.length = 2 := by rw [ha.blocks.length_eq, h]
  obtain ⟨g, p, out, e, h1, h2, h3, -, -, -, h4, ⟨s, hr⟩, h5⟩ := C63_from_torch_partial (invalidate := true) (B := 6) (by decide) (by decide) (by decide) (by decide) (by decide) (by decide) ha
    (by rw [hl]; decide) 0
  have hg : g.next ∉ netIds (⟨g.x, g.x, false⟩ :: p.toList) (g.model.net true) := by
    exact fun h => Nat.lt_irrefl _ (h4 _ h)
  obtain ⟨s1, e1, -, v1, -⟩ := h5 g.next s hg hr
  exact ⟨a, g, p, s, s1, ha, e, h3.params, e1, v1⟩

end NNTile
