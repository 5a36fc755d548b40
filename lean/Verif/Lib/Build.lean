import Verif.Spec.DeepModels
import Verif.Props.C36
/-!
# Growing networks
-/
namespace NNTile
open Finset
variable {asIdx : ℝ → Int} {invalidate : Bool}

theorem PyLayer.toNet_out (l : PyLayer ℝ) : (l.toNet asIdx invalidate).out = l.output := by cases l <;> rfl

theorem Ordered.mono {ls : List NetLayer} : ∀ {given given' : List Moments}, (∀ m ∈ given, m ∈ given') → Ordered given ls → Ordered given' ls := by
  induction ls with
  | nil => intro _ _ _ _; trivial
  | cons l ls ih =>
    intro given given' hs h
    refine ⟨fun m hm => hs m (h.1 m hm), ih (fun m hm => ?_) h.2⟩
    rcases List.mem_cons.1 hm with rfl | hm
    · simp
    · exact List.mem_cons_of_mem _ (hs m hm)

theorem Ordered.snoc {l : NetLayer} {ls : List NetLayer} : ∀ {given : List Moments}, Ordered given ls → (∀ m ∈ l.ins, m ∈ given ∨ m ∈ ls.map NetLayer.out) →
    Ordered given (ls ++ [l]) := by
  induction ls with
  | nil => intro given _ h; exact ⟨fun m hm => (h m hm).resolve_right (by simp), trivial⟩
  | cons a ls ih =>
    intro given ho h
    refine ⟨ho.1, ih ho.2 fun m hm => ?_⟩
    rcases h m hm with h | h
    · exact .inl (List.mem_cons_of_mem _ h)
    · rw [List.map_cons, List.mem_cons] at h
      rcases h with rfl | h
      · exact .inl (by simp)
      · exact .inr h

theorem netIds_snoc (given ps : List Moments) (l : NetLayer) (ls : List NetLayer) :
    (netIds (given ++ ps) (ls ++ [l])).Perm (netIds given ls ++ (ps.flatMap Moments.ids ++ (l.out.ids ++ l.temps.map Tensor.id))) := by
  rw [List.perm_iff_count]
  intro a
  simp only [netIds, List.flatMap_append, List.flatMap_cons, List.flatMap_nil, List.count_append, List.count_nil]
  omega

theorem netEnv_snoc (l : NetLayer) (ls : List NetLayer) : ∀ env : Env,
    netEnv env (ls ++ [l]) = Function.update (netEnv env ls) l.out.value.id (l.F (netEnv env ls)) := by
  induction ls with
  | nil => intro env; rfl
  | cons a ls ih => intro env; exact ih _

/-- The state of a constructor: the layers form a network with the inputs `inputs`, the masks `extra` and the parameters of the layers, the list of activations consists of the inputs and the
outputs of the layers, and the identities are smaller than `next_tag`. -/
structure Grown (asIdx : ℝ → Int) (invalidate : Bool) (inputs extra : List Moments) (b : Builder ℝ) : Prop where
  net : IsNetwork asIdx invalidate (inputs ++ extra ++ b.layers.flatMap PyLayer.parameters) b.layers
  below : ∀ i ∈ netIds (inputs ++ extra ++ b.layers.flatMap PyLayer.parameters) (netOf asIdx invalidate b.layers), i < b.next
  acts : b.acts = inputs ++ b.layers.map PyLayer.output
  wf : ∀ m ∈ b.layers.flatMap PyLayer.parameters ++ b.layers.map PyLayer.output,
    m.value.WF ∧ m.grad.shape = m.value.shape ∧ m.grad.basetile = m.value.basetile ∧ m.gradRequired = true
  temps : ∀ l ∈ netOf asIdx invalidate b.layers, ∀ T ∈ l.temps, T.WF

theorem Grown.init {inputs extra : List Moments} {next : Nat} (hn : ((inputs ++ extra).flatMap Moments.ids).Nodup) (hb : ∀ i ∈ (inputs ++ extra).flatMap Moments.ids, i < next) :
    Grown asIdx invalidate inputs extra ⟨inputs, [], next⟩ := by
  refine ⟨⟨by simp, by simp [netOf], trivial, by simpa [netIds, netOf] using hn⟩, by simpa [netIds, netOf] using hb, by simp, by simp, by simp [netOf]⟩

theorem Grown.add {inputs extra : List Moments} {b : Builder ℝ} (h : Grown asIdx invalidate inputs extra b) {l : PyLayer ℝ} {next : Nat} (hf : l.Fits)
    (hins : ∀ m ∈ (l.toNet asIdx invalidate).ins, m ∈ b.acts ∨ m ∈ l.parameters ∨ m ∈ extra)
    (hop : ((l.toNet asIdx invalidate).ins.map fun m => m.value.id).Nodup)
    (hnew : (l.parameters.flatMap Moments.ids ++ (l.output.ids ++ (l.toNet asIdx invalidate).temps.map Tensor.id)).Nodup)
    (hlo : ∀ i ∈ l.parameters.flatMap Moments.ids ++ (l.output.ids ++ (l.toNet asIdx invalidate).temps.map Tensor.id), b.next ≤ i ∧ i < next)
    (hwf : ∀ m ∈ l.parameters ++ [l.output], m.value.WF ∧ m.grad.shape = m.value.shape ∧ m.grad.basetile = m.value.basetile ∧ m.gradRequired = true)
    (ht : ∀ T ∈ (l.toNet asIdx invalidate).temps, T.WF) (hnext : b.next ≤ next) :
    Grown asIdx invalidate inputs extra ⟨b.acts ++ [l.output], b.layers ++ [l], next⟩ := by
  have e1 : netOf asIdx invalidate (b.layers ++ [l]) = netOf asIdx invalidate b.layers ++ [l.toNet asIdx invalidate] := by simp [netOf]
  have e2 : inputs ++ extra ++ (b.layers ++ [l]).flatMap PyLayer.parameters = (inputs ++ extra ++ b.layers.flatMap PyLayer.parameters) ++ l.parameters := by simp
  have e3 : (netOf asIdx invalidate b.layers).map NetLayer.out = b.layers.map PyLayer.output := by
    rw [netOf, List.map_map]
    exact List.map_congr_left fun l _ => l.toNet_out
  have hp := netIds_snoc (inputs ++ extra ++ b.layers.flatMap PyLayer.parameters) l.parameters (l.toNet asIdx invalidate) (netOf asIdx invalidate b.layers)
  rw [PyLayer.toNet_out] at hp
  refine ⟨⟨?_, ?_, ?_, ?_⟩, ?_, ?_, ?_, ?_⟩
  · intro l' hl'
    rcases List.mem_append.1 hl' with hl' | hl'
    · exact h.net.fits l' hl'
    · obtain rfl := List.mem_singleton.1 hl'
      exact hf
  · rw [e1]
    intro l' hl'
    rcases List.mem_append.1 hl' with hl' | hl'
    · exact h.net.operands l' hl'
    · obtain rfl := List.mem_singleton.1 hl'
      exact hop
  · rw [e1, e2]
    refine (h.net.order.mono fun m hm => List.mem_append_left _ hm).snoc fun m hm => ?_
    rw [e3]
    rcases hins m hm with hm | hm | hm
    · rw [h.acts] at hm
      rcases List.mem_append.1 hm with hm | hm
      · exact .inl (by simp [hm])
      · exact .inr hm
    · exact .inl (List.mem_append_right _ hm)
    · exact .inl (by simp [hm])
  · rw [e1, e2, hp.nodup_iff, List.nodup_append]
    refine ⟨h.net.ids, hnew, ?_⟩
    rintro i hi j hj rfl
    have := h.below i hi
    have := (hlo i hj).1
    omega
  · rw [e1, e2]
    intro i hi
    rcases List.mem_append.1 (hp.mem_iff.1 hi) with hi | hi
    · exact lt_of_lt_of_le (h.below i hi) hnext
    · exact (hlo i hi).2
  · simp [h.acts]
  · intro m hm
    simp only [List.flatMap_append, List.flatMap_cons, List.flatMap_nil, List.append_nil, List.map_append, List.map_cons, List.map_nil, List.mem_append, List.mem_singleton] at hm
    rcases hm with (hm | hm) | hm | hm
    · exact h.wf m (by simp only [List.mem_append]; exact .inl hm)
    · exact hwf m (by simp [hm])
    · exact h.wf m (List.mem_append_right _ hm)
    · exact hwf m (by simp [hm])
  · rw [e1]
    intro l' hl'
    rcases List.mem_append.1 hl' with hl' | hl'
    · exact h.temps l' hl'
    · obtain rfl := List.mem_singleton.1 hl'
      exact ht

/-- The value of a new layer, and those of the old tensors. -/
theorem Grown.value {b : Builder ℝ} {l : PyLayer ℝ} (env : Env) :
    netEnv env (netOf asIdx invalidate (b.layers ++ [l])) l.output.value.id = (l.toNet asIdx invalidate).F (netEnv env (netOf asIdx invalidate b.layers)) := by
  have e1 : netOf asIdx invalidate (b.layers ++ [l]) = netOf asIdx invalidate b.layers ++ [l.toNet asIdx invalidate] := by simp [netOf]
  rw [e1, netEnv_snoc, PyLayer.toNet_out, Function.update_self]

/-- Tensors which are not yet part of the network are not changed by it. -/
theorem Grown.fresh {inputs extra : List Moments} {b : Builder ℝ} (h : Grown asIdx invalidate inputs extra b) (env : Env) {i : Nat} (hi : b.next ≤ i) :
    netEnv env (netOf asIdx invalidate b.layers) i = env i := by
  refine netEnv_of_not_mem (fun l hl e => ?_) env
  have : l.out.value.id < b.next := by
    refine h.below _ (List.mem_append_right _ (List.mem_flatMap.2 ⟨l, hl, ?_⟩))
    simp [Moments.ids]
  omega

theorem Grown.act_lt {inputs extra : List Moments} {b : Builder ℝ} (h : Grown asIdx invalidate inputs extra b) {m : Moments} (hm : m ∈ b.acts) : ∀ i ∈ m.ids, i < b.next := by
  intro i hi
  rw [h.acts] at hm
  rcases List.mem_append.1 hm with hm | hm
  · refine h.below i (List.mem_append_left _ ?_)
    exact List.mem_flatMap.2 ⟨m, by simp [hm], hi⟩
  · obtain ⟨l, hl, rfl⟩ := List.mem_map.1 hm
    refine h.below i (List.mem_append_right _ (List.mem_flatMap.2 ⟨l.toNet asIdx invalidate, List.mem_map_of_mem hl, ?_⟩))
    rw [l.toNet_out]
    exact List.mem_append_left _ hi

theorem Linear.generate_eq {x : Moments} (hx : x.value.WF) (side : Side) (tx : TransOp) {n : Nat} (hn : 0 < n) {S B : List Nat} (hS : Pos S) (hB : Pos B)
    (hl : B.length = S.length) (bias : Bool) (hb : bias = true → S.length = 1) (next : Nat) (redux : Bool) :
    Linear.generate x side tx n S B next bias redux = .ok ⟨side, tx, x,
      ⟨⟨next + 4, linearY side tx n x.value.shape S, linearY side tx n x.value.basetile B⟩,
        ⟨next + 5, linearY side tx n x.value.shape S, linearY side tx n x.value.basetile B⟩, true⟩,
      ⟨⟨next, linearW side tx n x.value.shape S, linearW side tx n x.value.basetile B⟩,
        ⟨next + 1, linearW side tx n x.value.shape S, linearW side tx n x.value.basetile B⟩, true⟩, n,
      if bias then some ⟨⟨next + 2, S, B⟩, ⟨next + 3, S, B⟩, true⟩ else none, redux⟩ := by
  obtain ⟨⟨id, X, T⟩, xg, xr⟩ := x
  obtain ⟨hX, hT, hXT⟩ := hx
  simp only at hX hT hXT ⊢
  have hW : Pos (linearW side tx n X S) ∧ Pos (linearW side tx n T B) ∧ (linearW side tx n T B).length = (linearW side tx n X S).length := by
    refine ⟨?_, ?_, ?_⟩
    · cases side <;> cases tx <;> simp [linearW, lastOf, hS, hX.drop, hX.take]
    · cases side <;> cases tx <;> simp [linearW, lastOf, hB, hT.drop, hT.take]
    · cases side <;> cases tx <;> simp [linearW, lastOf, hXT, hl]
  have hY : Pos (linearY side tx n X S) ∧ Pos (linearY side tx n T B) ∧ (linearY side tx n T B).length = (linearY side tx n X S).length := by
    refine ⟨?_, ?_, ?_⟩
    · cases side <;> cases tx <;> simp [linearY, exceptLast, hS, hX.drop, hX.take]
    · cases side <;> cases tx <;> simp [linearY, exceptLast, hB, hT.drop, hT.take]
    · cases side <;> cases tx <;> simp [linearY, exceptLast, hXT, hl]
  unfold Linear.generate
  rw [throwIf_neg (by omega), M.bind_ok]
  simp only [Int.toNat_natCast, newTensor_ok hW, newTensor_ok hY, M.bind_ok]
  cases bias with
  | false => simp only [Bool.false_eq_true, if_false, M.bind_ok, Linear.init]; rw [throwIf_neg (by omega), M.bind_ok]
  | true =>
    simp only [if_true, newTensor_ok ⟨hS, hB, hl⟩, M.bind_ok, Linear.init]
    rw [throwIf_neg (by have := hb rfl; omega), M.bind_ok, M.bind_ok, throwIf_neg (by omega), M.bind_ok]

/-- A new linear layer. -/
theorem Grown.linear {inputs extra : List Moments} {b : Builder ℝ} (h : Grown asIdx invalidate inputs extra b) {x : Moments} (hxm : x ∈ b.acts) (hx : x.Usable) (side : Side)
    {n : Nat} (hn : 0 < n) (hn' : n ≤ x.value.ndim) {S B : List Nat} (hS : Pos S) (hB : Pos B) (hl : B.length = S.length) (bias : Bool)
    (hb : bias = true → S.length = 1) (redux : Bool) :
    ∃ (w y : Moments) (bm : Option Moments) (l : PyLayer ℝ), b.linear x side n S B bias redux = .ok ⟨b.acts ++ [y], b.layers ++ [l], b.next + 6⟩ ∧
      Grown asIdx invalidate inputs extra ⟨b.acts ++ [y], b.layers ++ [l], b.next + 6⟩ ∧ l.output = y ∧ l.Plain ∧ l.parameters = w :: bm.toList ∧ bm.isSome = bias ∧ y.Usable ∧ y.gradRequired = true ∧
      y.value.shape = linearY side .noTrans n x.value.shape S ∧ y.value.basetile = linearY side .noTrans n x.value.basetile B ∧
      w.value.shape = linearW side .noTrans n x.value.shape S ∧ (∀ m ∈ bm, m.value.shape = S) ∧
      ∀ env, netEnv env (netOf asIdx invalidate (b.layers ++ [l])) y.value.id =
        linearOut side .noTrans (headDims side n x.value.shape S) (genK side .noTrans n x.value.shape)
          (netEnv env (netOf asIdx invalidate b.layers) x.value.id) (env w.value.id) (biasValue bm env) := by
  obtain ⟨l, e, hlx, hls, hlt, hlb, ⟨Md, K, N, hfit⟩, hwf, hnd, hge⟩ :=
    C33_linear_generate hx.1 hx.2 side .noTrans hn hn' hS hB hl bias hb b.next redux
  rw [Linear.generate_eq hx.1 side .noTrans hn hS hB hl bias hb b.next redux, Except.ok.injEq] at e
  have hlt' := h.act_lt hxm
  refine ⟨l.w, l.y, l.b, .linear l, ?_, ?_, rfl, fun _ _ => ⟨rfl, fun _ => trivial⟩, rfl, hlb, ?_, ?_, ?_, ?_, ?_, ?_, ?_⟩
  · rw [Builder.linear, Linear.generate_eq hx.1 side .noTrans hn hS hB hl bias hb b.next redux, M.bind_ok, e]
  · refine h.add (l := .linear l) ⟨⟨Md, K, N, hfit⟩, by subst e; rfl⟩ ?_ ?_ ?_ ?_ ?_ (by simp [PyLayer.toNet, Linear.toNet]) (by omega)
    · intro m hm
      rcases List.mem_cons.1 hm with rfl | hm
      · rw [hlx]; exact .inl hxm
      · exact .inr (.inl hm)
    · have h0 : x.value.id < b.next := hlt' _ (by simp [Moments.ids])
      subst e
      cases bias <;> simp [PyLayer.toNet, Linear.toNet, Nat.ne_of_lt h0, Nat.ne_of_lt (Nat.lt_add_right 2 h0)]
    · subst e
      cases bias <;> simp [PyLayer.toNet, Linear.toNet, PyLayer.parameters, PyLayer.output, Moments.ids, Moments.gradIds]
    · subst e
      cases bias <;> simp [PyLayer.toNet, Linear.toNet, PyLayer.parameters, PyLayer.output, Moments.ids, Moments.gradIds]
    · intro m hm
      have hm' : m ∈ l.w :: l.y :: l.b.toList := by
        simp only [PyLayer.parameters, PyLayer.output, List.cons_append, List.mem_cons, List.mem_append, List.not_mem_nil, or_false] at hm ⊢
        tauto
      refine ⟨(hwf m hm').1, ?_⟩
      have hr := (hwf m hm').2.2
      clear hwf hnd hge hfit hm
      subst e
      revert hm'
      cases bias <;> simp +contextual [or_imp]
  · refine ⟨(hwf l.y (by simp)).1, ?_⟩
    subst e; exact ⟨rfl, rfl⟩
  · subst e; rfl
  · subst e; rfl
  · subst e; rfl
  · subst e; rfl
  · subst e; cases bias <;> simp
  · intro env
    have hv := Grown.value (asIdx := asIdx) (invalidate := invalidate) (b := b) (l := .linear l) env
    refine hv.trans ?_
    have hlen : (genK side .noTrans n x.value.shape).length = n := genK_length hn'
    have hdims : l.dimM = headDims side n x.value.shape S ∧ l.dimK = genK side .noTrans n x.value.shape := by
      simp only [Tensor.ndim] at hn'
      subst e
      cases side
      · simp only [Linear.dimM, Linear.dimK, linearY, linearW, headDims, genK, exceptLast, lastOf, Int.toNat_natCast, List.length_append, List.length_take,
          List.length_drop] at hlen ⊢
        refine ⟨by omega, ?_⟩
        rw [List.take_append_of_le_length (by rw [List.length_drop]; omega), List.take_of_length_le (by rw [List.length_drop]; omega)]
      · simp only [Linear.dimM, Linear.dimK, linearY, linearW, headDims, genK, exceptLast, lastOf, Int.toNat_natCast, List.length_append, List.length_take,
          List.length_drop] at hlen ⊢
        refine ⟨by omega, ?_⟩
        rw [List.drop_append_of_le_length (by omega), List.drop_of_length_le (by omega), List.nil_append]
    show linearOut l.side l.transX l.dimM l.dimK _ _ (l.biasOf _) = _
    rw [hdims.1, hdims.2, hls, hlt, hlx]
    have hw : b.next ≤ l.w.value.id := (hge l.w (by simp)).1
    rw [h.fresh env hw]
    congr 1
    unfold Linear.biasOf biasValue
    have hbm : ∀ m ∈ l.b, b.next ≤ m.value.id := fun m hm => (hge m (by rw [Option.mem_def] at hm; simp [hm])).1
    cases hlb' : l.b with
    | none => rfl
    | some m => exact h.fresh env (hbm m hlb')

/-- A new activation layer. -/
theorem Grown.actLayer {inputs extra : List Moments} {b : Builder ℝ} (h : Grown asIdx invalidate inputs extra b) {x : Moments} (hxm : x ∈ b.acts) (hx : x.Usable) {name : String}
    {k : ActKind} (hk : (name, k) ∈ [("relu", ActKind.relu), ("gelu", .gelu), ("gelutanh", .gelutanh)]) :
    ∃ (y : Moments) (l : PyLayer ℝ), b.act x name = .ok ⟨b.acts ++ [y], b.layers ++ [l], b.next + 2⟩ ∧
      Grown asIdx invalidate inputs extra ⟨b.acts ++ [y], b.layers ++ [l], b.next + 2⟩ ∧ l.output = y ∧ l.Plain ∧ l.parameters = [] ∧ y.Usable ∧ y.gradRequired = true ∧
      y.value.shape = x.value.shape ∧ y.value.basetile = x.value.basetile ∧
      ∀ env, netEnv env (netOf asIdx invalidate (b.layers ++ [l])) y.value.id = fun I => k.spec (netEnv env (netOf asIdx invalidate b.layers) x.value.id I) := by
  obtain ⟨l, e, rfl, rfl, hf, hw, hw', hid⟩ := (C35_act_generate hx.1 hx.2 name b.next).1 k hk
  obtain ⟨-, ⟨⟨y1, y2⟩, g1, g2⟩, hr⟩ := id hf
  have hus : l.y.Usable := ⟨hw, by rw [g1, y1], by rw [g2, y2]⟩
  refine ⟨l.y, .act l, ?_, ?_, rfl, fun _ _ => ⟨rfl, fun _ => trivial⟩, rfl, hus, hr, y1, y2, ?_⟩
  · rw [Builder.act, e, M.bind_ok]
  · refine h.add (l := .act l) hf ?_ ?_ ?_ ?_ ?_ (by simp [PyLayer.toNet, Act.toNet]) (by omega)
    · intro m hm
      obtain rfl := List.mem_singleton.1 hm
      exact .inl hxm
    · simp [PyLayer.toNet, Act.toNet]
    · simp [PyLayer.toNet, Act.toNet, PyLayer.parameters, PyLayer.output, hid]
    · simp [PyLayer.toNet, Act.toNet, PyLayer.parameters, PyLayer.output, hid]
    · intro m hm
      obtain rfl := List.mem_singleton.1 hm
      exact ⟨hus.1, hus.2.1, hus.2.2, hr⟩
  · intro env
    exact Grown.value (asIdx := asIdx) (invalidate := invalidate) (b := b) (l := .act l) env

theorem Builder.back_one {α : Type} {acts : List Moments} {y : Moments} {layers : List (PyLayer α)} {next : Nat} :
    Builder.back ⟨acts ++ [y], layers, next⟩ 1 = .ok y := by
  simp [Builder.back]

end NNTile
