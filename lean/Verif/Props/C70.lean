import Verif.Lib.DeepTorch
/-!
# C70: `GPT2MLP.from_torch` gives a model which computes what the MLP of PyTorch computes
-/
namespace NNTile
open Finset

theorem nd_T_is {α : Type} {a : NdArray α} {S : List Nat} {x : List Nat → α} (h : a.Is S x) : a.T.Is S.reverse (fun I => x I.reverse) := h.T

/-- The functions are the same, if weights are transposed. -/
theorem gptMlp_same (E inner : Nat) (phi : ℝ → ℝ) (w1 b1 w2 b2 v : List Nat → ℝ) (o : Nat) (J : List Nat) :
    linearOut .R .noTrans 1 [inner] (fun I => phi (linearOut .R .noTrans 1 [E] v (fun I => w1 I.reverse) (fun I => b1 I.reverse) I)) (fun I => w2 I.reverse) (fun I => b2 I.reverse) (o :: J) =
      torchGptMlp E inner phi w1 b1 w2 b2 (fun J i => v (i :: J)) J o := by
  simp only [linearOut, torchGptMlp, sum_box1, opCat]
  simp only [List.take_succ_cons, List.take_zero, List.drop_succ_cons, List.drop_zero, List.cons_append, List.nil_append, List.append_nil, List.reverse_cons, List.reverse_nil]
  congr 1
  refine Finset.sum_congr rfl fun h _ => ?_
  rw [mul_comm]
  congr 3
  exact Finset.sum_congr rfl fun i _ => mul_comm _ _

/-- **`from_torch`, then `forward_async`.** For every input tensor whose first dimension has size `E` (with any further dimensions and any tiling), all sizes and tiles of the configuration, every supported
activation function, and every PyTorch MLP (weights of shape inputs × outputs): the constructor and the loading succeed, and after it, whatever values `v` are put into the input, `forward_async` leaves in
the last activation the output of the PyTorch MLP, applied along the first dimension. -/
theorem C70_from_torch {x : Moments} (hx : x.Usable) (hid : x.ids.Nodup) {next : Nat} (hlt : ∀ i ∈ x.ids, i < next) {E : Nat} {R : List Nat} (hxs : x.value.shape = E :: R)
    {embed embedTile inner innerTile : Nat} (he : 0 < embed) (het : 0 < embedTile) (hi : 0 < inner) (hit : 0 < innerTile) {name : String} {kind : ActKind}
    (hk : (name, kind) ∈ [("relu", ActKind.relu), ("gelu", .gelu), ("gelutanh", .gelutanh)]) (redux : Bool) {aw1 ab1 aw2 ab2 : NdArray ℝ} {w1 b1 w2 b2 : List Nat → ℝ}
    (h1 : aw1.Is [E, inner] w1) (h2 : ab1.Is [inner] b1) (h3 : aw2.Is [inner, embed] w2) (h4 : ab2.Is [embed] b2) (rest : List (NdArray ℝ)) (asIdx : ℝ → Int) (invalidate : Bool) :
    ∃ (m : BaseModel ℝ) (layers : List (PyLayer ℝ)) (out : Moments) (acts : List Moments), gpt2Mlp x embed embedTile inner innerTile name redux next = .ok (m, next + 14) ∧
      m = BaseModel.init acts layers ∧ acts.getLast? = some out ∧ out.value.shape = embed :: R ∧
      (let given := x :: layers.flatMap PyLayer.parameters
      let net := netOf asIdx invalidate layers
      IsNetwork asIdx invalidate given layers ∧ (∀ i ∈ netIds given net, i < next + 14) ∧ (∃ s, NetReady given net s) ∧
      ∀ (tmpId : Nat) (s : Store ℝ), tmpId ∉ netIds given net → NetReady given net s → ∃ s1, mlpFromTorchLoad m (aw1 :: ab1 :: aw2 :: ab2 :: rest) tmpId s = .ok s1 ∧
        NetReady given net s1 ∧ OnlyChanged (tmpId :: (layers.flatMap PyLayer.parameters).map fun m => m.value.id) s s1 ∧
        ∀ (s2 : Store ℝ) (v : List Nat → ℝ), OnlyChanged [x.value.id, tmpId] s1 s2 → x.value.Ready s2 → x.value.Holds s2 v →
          Runs (m.forwardAsync asIdx invalidate) s2 (fwdIds net) (fun s3 => out.value.Holds s3 (fun I =>
            torchGptMlp E inner kind.spec w1 b1 w2 b2 (fun J i => v (i :: J)) I.tail (I.headD 0)))) := by
  obtain ⟨h, y, m1, c1, m2, c2, a, layers, e, hpar, hout, hpl, hnet, hbel, hus, hsh, ⟨sw1, sb1⟩, ⟨sw2, sb2⟩, hval⟩ :=
    C37_gpt2_mlp (asIdx := asIdx) (invalidate := invalidate) hx hid hlt (by rw [Tensor.ndim, hxs]; simp) he het hi hit hk redux
  rw [hxs] at sw1 hval hsh
  have sw1 : m1.value.shape = [inner, E] := sw1
  have sw2 : m2.value.shape = [embed, inner] := sw2
  have sb1 : c1.value.shape = [inner] := sb1 c1 rfl
  have sb2 : c2.value.shape = [embed] := sb2 c2 rfl
  rw [← hpar] at hnet hbel
  have hall : All3 (fun (m : Moments) p y => m.value.shape ≠ [] ∧ p.Is m.value.shape y) (layers.flatMap PyLayer.parameters) [aw1.T, ab1.T, aw2.T, ab2.T]
      [fun I => w1 I.reverse, fun I => b1 I.reverse, fun I => w2 I.reverse, fun I => b2 I.reverse] := by
    rw [hpar]
    refine .cons ⟨by rw [sw1]; simp, ?_⟩ (.cons ⟨by rw [sb1]; simp, ?_⟩ (.cons ⟨by rw [sw2]; simp, ?_⟩ (.cons ⟨by rw [sb2]; simp, ?_⟩ .nil)))
    · rw [sw1]; exact nd_T_is h1
    · rw [sb1]; exact nd_T_is h2
    · rw [sw2]; exact nd_T_is h3
    · rw [sb2]; exact nd_T_is h4
  refine ⟨_, layers, y, [x, h, a, y], e, rfl, rfl, by rw [hsh]; rfl, ?_⟩
  intro given net
  have pmem : ∀ m ∈ layers.flatMap PyLayer.parameters, m ∈ given := fun m hm => List.mem_cons_of_mem _ hm
  have xmem : x ∈ given := List.mem_cons_self ..
  have hids := ids_nodup hnet.ids
  rw [List.map_cons, List.nodup_cons] at hids
  have hxne : ∀ m ∈ layers.flatMap PyLayer.parameters, x.value.id ≠ m.value.id := fun m hm h => hids.1 (h ▸ List.mem_map_of_mem hm)
  refine ⟨hnet, hbel, ?_, ?_⟩
  · obtain ⟨s, hs, -⟩ := C37_registered hnet (by
      intro m hm
      rcases List.mem_append.1 hm with hm | hm
      · rcases List.mem_cons.1 hm with rfl | hm
        · exact hx
        · rw [hpar] at hm
          exact (hus m (by simp only [List.mem_cons, List.not_mem_nil, or_false] at hm ⊢; tauto)).1
      · rw [hout] at hm
        exact (hus m (by simp only [List.mem_cons, List.not_mem_nil, or_false] at hm ⊢; tauto)).1) (by
      intro l hl T hT
      obtain ⟨l0, hl0, rfl⟩ := List.mem_map.1 hl
      rw [(hpl l0 hl0 _ _).1] at hT
      cases hT) (fun _ _ => 0) (fun _ _ => 0)
    exact ⟨s, hs⟩
  intro tmpId s htmp hr
  have ht : ∀ m ∈ given, tmpId ≠ m.value.id := fun m hm h => htmp (h ▸ mem_netIds hm)
  obtain ⟨s1, e1, v1, r1, o1⟩ := deepLoads_spec (tmpId := tmpId) hall hids.2 (fun m hm => ht m (pmem m hm)) (s := s) (fun m hm => (hr.1 m (List.mem_append_left _ (pmem m hm))).1)
  have hr1 : NetReady given net s1 := hr.keep hnet.ids o1 (by
    intro i hi
    rcases List.mem_cons.1 hi with rfl | hi
    · exact .inl htmp
    · obtain ⟨m, hm, rfl⟩ := List.mem_map.1 hi
      exact .inr ⟨m, pmem m hm, rfl, r1 m hm⟩)
  refine ⟨s1, ?_, hr1, o1, ?_⟩
  · have ep : (BaseModel.init [x, h, a, y] layers).parameters = [.moments m1, .moments c1, .moments m2, .moments c2] := by
      rw [BaseModel.init]
      dsimp only
      rw [← List.map_flatMap, hpar]
      rfl
    rw [mlpFromTorchLoad, ep, mlpLoads_eq (by simp), ← e1, hpar]
    rfl
  intro s2 v o2 r2 v2
  have hr2 : NetReady given net s2 := hr1.keep hnet.ids o2 (by
    intro i hi
    simp only [List.mem_cons, List.not_mem_nil, or_false] at hi
    rcases hi with rfl | rfl
    · exact .inr ⟨_, xmem, rfl, r2⟩
    · exact .inl htmp)
  have hv2 : List.Forall₂ (fun m y => m.value.Holds s2 y) (layers.flatMap PyLayer.parameters)
      [fun I => w1 I.reverse, fun I => b1 I.reverse, fun I => w2 I.reverse, fun I => b2 I.reverse] := by
    have key : ∀ {ms : List Moments} {ys : List (List Nat → ℝ)}, List.Forall₂ (fun m y => m.value.Holds s1 y) ms ys → (∀ m ∈ ms, m ∈ layers.flatMap PyLayer.parameters) →
        List.Forall₂ (fun m y => m.value.Holds s2 y) ms ys := by
      intro ms ys h hm
      induction h with
      | nil => exact .nil
      | cons h _ ih =>
        refine .cons (o2.holds h ?_) (ih fun m' hm' => hm m' (List.mem_cons_of_mem _ hm'))
        have h1 := hm _ (List.mem_cons_self ..)
        simp only [List.mem_cons, List.not_mem_nil, or_false, not_or]
        exact ⟨Ne.symm (hxne _ h1), Ne.symm (ht _ (pmem _ h1))⟩
    exact key v1 fun _ h => h
  obtain ⟨env, en1, en2, hrun⟩ := plain_forward (acts := [x, h, a, y]) hnet hpl hr2 v2 hv2
  have hmem : ∃ l ∈ layers, l.output = y := by
    have : y ∈ layers.map PyLayer.output := by rw [hout]; simp
    obtain ⟨l, hl', e'⟩ := List.mem_map.1 this
    exact ⟨l, hl', e'⟩
  obtain ⟨l, hl', rfl⟩ := hmem
  refine hrun.imp (fun _ h => h) fun s3 _ hs => ?_
  refine holds_congr (hs l hl') fun I hI => ?_
  rw [hsh] at hI
  obtain ⟨o, J, rfl⟩ : ∃ o J, I = o :: J := by
    cases I with
    | nil => exact absurd hI.length (by simp)
    | cons o J => exact ⟨o, J, rfl⟩
  rw [hpar] at en2
  simp only [List.forall₂_cons, List.forall₂_nil_left_iff, and_true] at en2
  obtain ⟨q1, q2, q3, q4⟩ := en2
  rw [hval env, en1, q1, q2, q3, q4]
  exact gptMlp_same E inner kind.spec w1 b1 w2 b2 v o J

/-- Fewer than four parameters: an exception. -/
theorem C70_too_few {x : Moments} (hx : x.Usable) (hid : x.ids.Nodup) {next : Nat} (hlt : ∀ i ∈ x.ids, i < next) (hn : 1 ≤ x.value.ndim)
    {embed embedTile inner innerTile : Nat} (he : 0 < embed) (het : 0 < embedTile) (hi : 0 < inner) (hit : 0 < innerTile) {name : String} {kind : ActKind}
    (hk : (name, kind) ∈ [("relu", ActKind.relu), ("gelu", .gelu), ("gelutanh", .gelutanh)]) (redux : Bool) {ps : List (NdArray ℝ)} (hps : ps.length < 4)
    (hdef : ∀ p ∈ ps, ∃ y, p.Is p.shape y) (asIdx : ℝ → Int) (invalidate : Bool) :
    ∃ (m : BaseModel ℝ) (params : List Moments) (layers : List (PyLayer ℝ)), gpt2Mlp x embed embedTile inner innerTile name redux next = .ok (m, next + 14) ∧ m.layers = layers ∧
      params = layers.flatMap PyLayer.parameters ∧ params.length = 4 ∧ ∀ (tmpId : Nat) (s : Store ℝ), tmpId ∉ netIds (x :: params) (netOf asIdx invalidate layers) → NetReady (x :: params) (netOf asIdx invalidate layers) s →
        Throws (mlpFromTorchLoad m ps tmpId s) := by
  obtain ⟨h, y, m1, c1, m2, c2, a, layers, e, hpar, hout, hpl, hnet, hbel, hus, hsh, ⟨sw1, sb1⟩, ⟨sw2, sb2⟩, hval⟩ :=
    C37_gpt2_mlp (asIdx := asIdx) (invalidate := invalidate) hx hid hlt hn he het hi hit hk redux
  refine ⟨_, [m1, c1, m2, c2], layers, e, rfl, hpar.symm, rfl, ?_⟩
  intro tmpId s htmp hr
  have ep : (BaseModel.init [x, h, a, y] layers).parameters = [m1, c1, m2, c2].map .moments := by
    rw [BaseModel.init]
    dsimp only
    rw [← List.map_flatMap, hpar]
  have hids := ids_nodup hnet.ids
  rw [List.map_cons, List.nodup_cons] at hids
  have hne : ∀ m ∈ [m1, c1, m2, c2], m.value.shape ≠ [] := by
    intro m hm
    simp only [List.mem_cons, List.not_mem_nil, or_false] at hm
    rcases hm with rfl | rfl | rfl | rfl
    · rw [show m.value.shape = [inner] ++ x.value.shape.take 1 from sw1]; simp
    · rw [sb1 m rfl]; simp
    · rw [show m.value.shape = [embed] ++ [inner] from sw2]; simp
    · rw [sb2 m rfl]; simp
  rw [mlpFromTorchLoad, ep]
  have key : ∀ (ms : List Moments) (ps : List (NdArray ℝ)) (s : Store ℝ), ps.length < ms.length → (ms.map fun m => m.value.id).Nodup → (∀ m ∈ ms, tmpId ≠ m.value.id) →
      (∀ m ∈ ms, m.value.Ready s ∧ m.value.shape ≠ []) → (∀ p ∈ ps, ∃ y, p.Is p.shape y) → Throws (mlpLoads tmpId (ms.map .moments) ps s) := by
    intro ms
    induction ms with
    | nil => intro ps s hl; simp at hl
    | cons m ms ih =>
      intro ps s hl hn ht hr hp
      cases ps with
      | nil => exact ⟨_, rfl⟩
      | cons p ps =>
        rw [List.map_cons, mlpLoads, loadEntry]
        by_cases hs : p.T.shape = m.value.shape
        · obtain ⟨y, hy⟩ := hp p (by simp)
          have hy' := nd_T_is hy
          rw [show p.shape.reverse = m.value.shape from hs] at hy'
          rw [List.map_cons, List.nodup_cons] at hn
          obtain ⟨s1, e1, v1, r1, o1⟩ := fromArray_is (hr m (by simp)).1 (ht m (by simp)) (hr m (by simp)).2 hy'
          rw [e1, M.bind_ok]
          refine ih ps s1 (by simpa using hl) hn.2 (fun m' h => ht m' (List.mem_cons_of_mem _ h)) (fun m' hm' => ?_) (fun p' hp' => hp p' (List.mem_cons_of_mem _ hp'))
          have := hr m' (List.mem_cons_of_mem _ hm')
          refine ⟨o1.ready this.1 ?_, this.2⟩
          simp only [List.mem_cons, List.not_mem_nil, or_false, not_or]
          exact ⟨fun h => hn.1 (h ▸ List.mem_map_of_mem hm'), Ne.symm (ht m' (List.mem_cons_of_mem _ hm'))⟩
        · refine Throws.bind (C46_rejects ?_).2
          rw [if_neg (hr m (by simp)).2]
          exact hs
  exact key _ ps s (by simpa using hps) hids.2 (fun m hm h => htmp (h ▸ mem_netIds (List.mem_cons_of_mem _ hm)))
    (fun m hm => ⟨(hr.1 m (List.mem_append_left _ (List.mem_cons_of_mem _ hm))).1, hne m hm⟩) hdef

/-! ### The hypotheses can be met -/

/-- The input of shape 7×5 in tiles 3×2 of C37, a hidden layer of size 28 in tiles of 8, GELU: every PyTorch MLP is loaded and computed. -/
example (w1 b1 w2 b2 v : List Nat → ℝ) : ∃ (m : BaseModel ℝ) (out : Moments) (s s1 s2 : Store ℝ) (ids : List Nat), gpt2Mlp deepExample 7 3 28 8 "gelu" true 1 = .ok (m, 15) ∧
    out.value.shape = [7, 5] ∧ mlpFromTorchLoad m [ndOf [7, 28] w1, ndOf [28] b1, ndOf [28, 7] w2, ndOf [7] b2] 15 s = .ok s1 ∧ fromArray deepExample.value 15 (ndOf [7, 5] v).toF s1 = .ok s2 ∧
    Runs (m.forwardAsync (fun _ => 0) false) s2 ids (fun s3 => out.value.Holds s3 fun I => torchGptMlp 7 28 geluSpec w1 b1 w2 b2 (fun J i => v (i :: J)) I.tail (I.headD 0)) := by
  obtain ⟨h1, h2, h3⟩ := deepExample_ok
  obtain ⟨m, layers, out, acts, e, -, -, hs, -, hlt, ⟨s, hr⟩, hload⟩ := C70_from_torch h1 h2 h3 (E := 7) (R := [5]) rfl (embed := 7) (embedTile := 3) (inner := 28) (innerTile := 8) (by decide)
    (by decide) (by decide) (by decide) (name := "gelu") (kind := .gelu) (by simp) true (ndOf_is [7, 28] w1) (ndOf_is [28] b1) (ndOf_is [28, 7] w2) (ndOf_is [7] b2) [] (fun _ => 0) false
  obtain ⟨s1, e1, r1, -, hf⟩ := hload 15 s (fun h => Nat.lt_irrefl _ (hlt _ h)) hr
  obtain ⟨s2, e2, v2, r2, o2⟩ := fromArray_is (y := v) (r1.1 deepExample (by simp)).1 (tmpId := 15) (by decide) (by simp [deepExample]) (ndOf_is [7, 5] v)
  exact ⟨m, out, s, s1, s2, _, e, hs, e1, e2, hf s2 v o2 r2 v2⟩

/-- Three parameters are not enough. -/
example (w1 b1 w2 : List Nat → ℝ) : ∃ (m : BaseModel ℝ) (s : Store ℝ), gpt2Mlp deepExample 7 3 28 8 "gelu" true 1 = .ok (m, 15) ∧
    Throws (mlpFromTorchLoad m [ndOf [7, 28] w1, ndOf [28] b1, ndOf [28, 7] w2] 15 s) := by
  obtain ⟨h1, h2, h3⟩ := deepExample_ok
  obtain ⟨m, layers, out, acts, e, hm, -, hs, hnet, hlt, ⟨s, hr⟩, hload⟩ := C70_from_torch h1 h2 h3 (E := 7) (R := [5]) rfl (embed := 7) (embedTile := 3) (inner := 28) (innerTile := 8) (by decide)
    (by decide) (by decide) (by decide) (name := "gelu") (kind := .gelu) (by simp) true (ndOf_is [7, 28] w1) (ndOf_is [28] b1) (ndOf_is [28, 7] w2) (ndOf_is [7] fun _ => (0 : ℝ)) []
    (fun _ => 0) false
  obtain ⟨m', params, layers', e', hl', hpar, -, hbad⟩ := C70_too_few h1 h2 h3 (by decide) (embed := 7) (embedTile := 3) (inner := 28) (innerTile := 8) (by decide) (by decide) (by decide) (by decide)
    (name := "gelu") (kind := .gelu) (by simp) true (ps := [ndOf [7, 28] w1, ndOf [28] b1, ndOf [28, 7] w2]) (by simp) (by
      intro p hp
      simp only [List.mem_cons, List.not_mem_nil, or_false] at hp
      rcases hp with rfl | rfl | rfl
      · exact ⟨w1, ndOf_is _ _⟩
      · exact ⟨b1, ndOf_is _ _⟩
      · exact ⟨w2, ndOf_is _ _⟩) (fun _ => 0) false
  obtain rfl : m' = m := by
    rw [e] at e'
    exact (Prod.mk.inj (Except.ok.inj e')).1.symm
  have el : layers' = layers := by rw [← hl', hm]; rfl
  subst el hpar
  exact ⟨m', s, e, hbad 15 s (fun h => Nat.lt_irrefl _ (hlt _ h)) hr⟩

end NNTile
