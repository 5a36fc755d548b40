import Verif.Lib.Build
import Verif.Spec.Gpt2
/-!
# More layers for growing networks
-/
namespace NNTile
open Finset
variable {asIdx : ℝ → Int} {invalidate : Bool} {inputs extra : List Moments} {b : Builder ℝ}

theorem NetValid_snoc (l : NetLayer) (ls : List NetLayer) : ∀ env : Env, NetValid env (ls ++ [l]) ↔ NetValid env ls ∧ l.Valid (netEnv env ls) := by
  induction ls with
  | nil => intro env; simp [NetValid, netEnv]
  | cons a ls ih =>
    intro env
    rw [List.cons_append, NetValid, NetValid, ih, and_assoc]
    rfl

theorem NetRegular_snoc (l : NetLayer) (ls : List NetLayer) : ∀ env : Env, NetRegular env (ls ++ [l]) ↔ NetRegular env ls ∧ l.Regular (netEnv env ls) := by
  induction ls with
  | nil => intro env; simp [NetRegular, netEnv]
  | cons a ls ih =>
    intro env
    rw [List.cons_append, NetRegular, NetRegular, ih, and_assoc]
    rfl

theorem netOf_snoc (layers : List (PyLayer ℝ)) (l : PyLayer ℝ) : netOf asIdx invalidate (layers ++ [l]) = netOf asIdx invalidate layers ++ [l.toNet asIdx invalidate] := by
  simp [netOf]

/-- Old tensors keep their values. -/
theorem Grown.keep (layers : List (PyLayer ℝ)) (l : PyLayer ℝ) (env : Env) {i : Nat} (h : i ≠ l.output.value.id) :
    netEnv env (netOf asIdx invalidate (layers ++ [l])) i = netEnv env (netOf asIdx invalidate layers) i := by
  rw [netOf_snoc, netEnv_snoc, PyLayer.toNet_out, Function.update_of_ne h]

/-- The given tensors keep their values. -/
theorem Grown.input (h : Grown asIdx invalidate inputs extra b) {m : Moments} (hm : m ∈ inputs ++ extra) (env : Env) :
    netEnv env (netOf asIdx invalidate b.layers) m.value.id = env m.value.id :=
  netEnv_given h.net.ids env (List.mem_append_left _ hm)

theorem Moments.Usable.is {m : Moments} (h : m.Usable) {S B : List Nat} (h1 : m.value.shape = S) (h2 : m.value.basetile = B) : m.Is S B :=
  ⟨h1, h2, fun _ => ⟨by rw [h.2.1, h1], by rw [h.2.2, h2]⟩⟩

theorem Moments.Usable.same {m : Moments} (h : m.Usable) : m.SameAs m.value := ⟨⟨rfl, rfl⟩, h.2.1, h.2.2⟩

theorem Grown.embedding (h : Grown asIdx invalidate inputs extra b) {T : Tensor} (hT : (⟨T, T, false⟩ : Moments) ∈ inputs) (hmem : (⟨T, T, false⟩ : Moments) ∈ b.acts) (hw : T.WF)
    {vocab E tE tW : Nat} (h1 : 0 < vocab) (h2 : 0 < E) (h3 : 0 < tE) (h4 : 0 < tW) (h5 : tW ∣ tE) :
    ∃ (w y : Moments) (l : PyLayer ℝ), b.embedding T 0 vocab E tE tW = .ok ⟨b.acts ++ [y], b.layers ++ [l], b.next + 4⟩ ∧
      Grown asIdx invalidate inputs extra ⟨b.acts ++ [y], b.layers ++ [l], b.next + 4⟩ ∧ l.output = y ∧ l.parameters = [w] ∧ y.Usable ∧ y.gradRequired = true ∧
      y.value.shape = E :: T.shape ∧ y.value.basetile = tE :: T.basetile ∧ w.value.shape = [E, vocab] ∧ b.next ≤ y.value.id ∧
      (∀ env, netEnv env (netOf asIdx invalidate (b.layers ++ [l])) y.value.id = fun I => env w.value.id [I.getD 0 0, (asIdx (env T.id (I.eraseIdx 0))).toNat]) ∧
      ∀ env, (∀ J, InBox T.shape J → 0 ≤ asIdx (env T.id J) ∧ asIdx (env T.id J) < vocab) →
        (l.toNet asIdx invalidate).Valid (netEnv env (netOf asIdx invalidate b.layers)) ∧ (l.toNet asIdx invalidate).Regular (netEnv env (netOf asIdx invalidate b.layers)) := by
  obtain ⟨l, e, hx, fit, hwf, iw, iy, ws, ys, yb⟩ := (C35_embedding_generate hw (a := 0) (by omega) vocab E tE tW b.next).1 h1 h2 h3 h4 h5
  obtain ⟨ax, -, f2, wg, yg, wr, yr⟩ := id fit
  have hiw : l.w.value.id = b.next := by simp [Moments.ids, Moments.gradIds] at iw; exact iw.1
  have hiy : l.y.value.id = b.next + 2 := by simp [Moments.ids, Moments.gradIds] at iy; exact iy.1
  have hTlt : T.id < b.next := h.act_lt hmem _ (by simp [Moments.ids])
  have hwb : l.w.grad.basetile = l.w.value.basetile ∧ l.y.grad.basetile = l.y.value.basetile := by
    have : EmbeddingLayer.generate T 0 vocab E tE tW b.next = .ok l := e
    unfold EmbeddingLayer.generate at this
    rw [throwIf_neg (by omega), M.bind_ok, throwIf_neg (by simpa using Nat.mod_eq_zero_of_dvd h5), M.bind_ok] at this
    simp only [newTensor] at this
    have hw1 : Tensor.WF ⟨b.next, [E, vocab], [tW, vocab]⟩ := by simp [Tensor.WF, h1, h2, h4]
    have hw2 : Tensor.WF ⟨b.next + 1, [E, vocab], [tW, vocab]⟩ := hw1
    by_cases hy1 : Tensor.WF ⟨b.next + 2, pyInsert T.shape 0 E, pyInsert T.basetile 0 tE⟩
    · have hy2 : Tensor.WF ⟨b.next + 3, pyInsert T.shape 0 E, pyInsert T.basetile 0 tE⟩ := hy1
      rw [throwIf_neg (by simpa using hw1), M.bind_ok, M.bind_ok, throwIf_neg (by simpa using hw2), M.bind_ok, M.bind_ok, throwIf_neg (by simpa using hy1), M.bind_ok, M.bind_ok,
        throwIf_neg (by simpa using hy2), M.bind_ok, M.bind_ok] at this
      cases this
      exact ⟨rfl, rfl⟩
    · rw [throwIf_neg (by simpa using hw1), M.bind_ok, M.bind_ok, throwIf_neg (by simpa using hw2), M.bind_ok, M.bind_ok, throwIf_pos (by simpa using hy1)] at this
      cases this
  have hin : ∀ env, netEnv env (netOf asIdx invalidate b.layers) T.id = env T.id := fun env => h.input (m := ⟨T, T, false⟩) (List.mem_append_left _ hT) env
  refine ⟨l.w, l.y, .embedding l, ?_, ?_, rfl, rfl, ⟨(hwf l.y (by simp)).1, yg, hwb.2⟩, yr, by rw [ys]; rfl, by rw [yb]; rfl, ws, by omega, ?_, ?_⟩
  · rw [Builder.embedding]
    refine (congrArg (· >>= _) e).trans ?_
    rw [M.bind_ok]
  · refine h.add (l := .embedding l) ⟨0, fit⟩ ?_ ?_ ?_ ?_ ?_ (by simp [PyLayer.toNet, EmbeddingLayer.toNet]) (by omega)
    · intro m hm
      change m ∈ [l.tokens, l.w] at hm
      rcases List.mem_cons.1 hm with rfl | hm
      · rw [EmbeddingLayer.tokens, hx]; exact .inl hmem
      · exact .inr (.inl hm)
    · show ([l.tokens, l.w].map fun m => m.value.id).Nodup
      simp [EmbeddingLayer.tokens, hx, hiw]
      omega
    · simp [PyLayer.parameters, PyLayer.output, PyLayer.toNet, EmbeddingLayer.toNet, iw, iy]
    · simp [PyLayer.parameters, PyLayer.output, PyLayer.toNet, EmbeddingLayer.toNet, iw, iy]
    · intro m hm
      simp only [PyLayer.parameters, PyLayer.output, List.cons_append, List.nil_append, List.mem_cons, List.not_mem_nil, or_false] at hm
      rcases hm with rfl | rfl
      · exact ⟨(hwf l.w (by simp)).1, wg, hwb.1, wr⟩
      · exact ⟨(hwf l.y (by simp)).1, yg, hwb.2, yr⟩
  · intro env
    have hv := Grown.value (asIdx := asIdx) (invalidate := invalidate) (b := b) (l := .embedding l) env
    refine hv.trans ?_
    funext I
    show netEnv env _ l.w.value.id [I.getD l.axis.toNat 0, (asIdx (netEnv env _ l.x.id (I.eraseIdx l.axis.toNat))).toNat] = _
    rw [h.fresh env (i := l.w.value.id) (by omega), hx, hin env, ax]
    rfl
  · intro env ht
    have : TokensOk l.x l.w.value asIdx (netEnv env (netOf asIdx invalidate b.layers) l.x.id) := by
      rw [hx, hin env]
      intro J hJ
      rw [ws]
      exact ht J hJ
    exact ⟨this, this⟩

theorem Grown.addSlice (h : Grown asIdx invalidate inputs extra b) {x y : Moments} (hx : x ∈ b.acts) (hy : y ∈ b.acts) (ux : x.Usable) (uy : y.Usable) (rx : x.gradRequired = true)
    (ry : y.gradRequired = true) (hne : x.value.id ≠ y.value.id) {a : Nat} (ha : a < x.value.shape.length) (hs : y.value.shape = x.value.shape.eraseIdx a)
    (ht : y.value.basetile = x.value.basetile.eraseIdx a) (redux : Bool) :
    ∃ (u : Moments) (l : PyLayer ℝ), b.addSlice x y a redux = .ok ⟨b.acts ++ [u], b.layers ++ [l], b.next + 2⟩ ∧
      Grown asIdx invalidate inputs extra ⟨b.acts ++ [u], b.layers ++ [l], b.next + 2⟩ ∧ l.output = u ∧ l.parameters = [] ∧ u.Usable ∧ u.gradRequired = true ∧
      u.value.shape = x.value.shape ∧ u.value.basetile = x.value.basetile ∧ b.next ≤ u.value.id ∧
      (∀ env, netEnv env (netOf asIdx invalidate (b.layers ++ [l])) u.value.id = fun I =>
        netEnv env (netOf asIdx invalidate b.layers) x.value.id I + netEnv env (netOf asIdx invalidate b.layers) y.value.id (I.eraseIdx a)) ∧
      ∀ env, (l.toNet asIdx invalidate).Valid env ∧ (l.toNet asIdx invalidate).Regular env := by
  obtain ⟨l, e, rfl, rfl, ax, fit, w1, w2, iu⟩ := C35_add_slice_generate ux.1 ux.same (a := a) ⟨ha, hs, ht⟩ ⟨ha, by rw [uy.2.1, hs], by rw [uy.2.2, ht]⟩ rx ry b.next redux
  obtain ⟨-, -, ⟨⟨u1, u2⟩, u3, u4⟩, -, -, -, -, ru⟩ := id fit
  have hid : l.u.value.id = b.next := by simp [Moments.ids, Moments.gradIds] at iu; exact iu.1
  have uu : l.u.Usable := ⟨w1, by rw [u3, u1], by rw [u4, u2]⟩
  refine ⟨l.u, .addSlice l, ?_, ?_, rfl, rfl, uu, ru, u1, u2, by omega, ?_, fun _ => ⟨trivial, trivial⟩⟩
  · rw [Builder.addSlice, e, M.bind_ok]
  · refine h.add (l := .addSlice l) ⟨a, fit⟩ ?_ ?_ ?_ ?_ ?_ (by simp [PyLayer.toNet, AddSliceLayer.toNet]) (by omega)
    · intro m hm
      change m ∈ [l.x, l.y] at hm
      simp only [List.mem_cons, List.not_mem_nil, or_false] at hm
      rcases hm with rfl | rfl
      · exact .inl hx
      · exact .inl hy
    · show ([l.x, l.y].map fun m => m.value.id).Nodup
      simpa using hne
    · simp [PyLayer.parameters, PyLayer.output, PyLayer.toNet, AddSliceLayer.toNet, iu]
    · simp [PyLayer.parameters, PyLayer.output, PyLayer.toNet, AddSliceLayer.toNet, iu]
    · intro m hm
      obtain rfl := List.mem_singleton.1 hm
      exact ⟨uu.1, uu.2.1, uu.2.2, ru⟩
  · intro env
    refine (Grown.value (asIdx := asIdx) (invalidate := invalidate) (b := b) (l := .addSlice l) env).trans ?_
    funext I
    show netEnv env _ l.x.value.id I + netEnv env _ l.y.value.id (I.eraseIdx l.axis.toNat) = _
    rw [ax]
    rfl

theorem Grown.addLayer (h : Grown asIdx invalidate inputs extra b) {x y : Moments} (hx : x ∈ b.acts) (hy : y ∈ b.acts) (ux : x.Usable) (uy : y.Usable) (rx : x.gradRequired = true)
    (ry : y.gradRequired = true) (hne : x.value.id ≠ y.value.id) (hs : y.value.shape = x.value.shape) (ht : y.value.basetile = x.value.basetile) :
    ∃ (u : Moments) (l : PyLayer ℝ), b.add x y = .ok ⟨b.acts ++ [u], b.layers ++ [l], b.next + 2⟩ ∧
      Grown asIdx invalidate inputs extra ⟨b.acts ++ [u], b.layers ++ [l], b.next + 2⟩ ∧ l.output = u ∧ l.parameters = [] ∧ u.Usable ∧ u.gradRequired = true ∧
      u.value.shape = x.value.shape ∧ u.value.basetile = x.value.basetile ∧ b.next ≤ u.value.id ∧
      (∀ env, netEnv env (netOf asIdx invalidate (b.layers ++ [l])) u.value.id = fun I =>
        netEnv env (netOf asIdx invalidate b.layers) x.value.id I + netEnv env (netOf asIdx invalidate b.layers) y.value.id I) ∧
      ∀ env, (l.toNet asIdx invalidate).Valid env ∧ (l.toNet asIdx invalidate).Regular env := by
  obtain ⟨l, e, rfl, rfl, fit, w1, w2, iu⟩ := C35_add_generate ux.1 ux.same (y := y) ⟨⟨hs, ht⟩, by rw [uy.2.1, hs], by rw [uy.2.2, ht]⟩ rx ry b.next
  obtain ⟨-, -, ⟨⟨u1, u2⟩, u3, u4⟩, -, -, ru⟩ := id fit
  have hid : l.res.value.id = b.next := by simp [Moments.ids, Moments.gradIds] at iu; exact iu.1
  have uu : l.res.Usable := ⟨w1, by rw [u3, u1], by rw [u4, u2]⟩
  refine ⟨l.res, .add l, ?_, ?_, rfl, rfl, uu, ru, u1, u2, by omega, ?_, fun _ => ⟨trivial, trivial⟩⟩
  · rw [Builder.add, e, M.bind_ok]
  · refine h.add (l := .add l) fit ?_ ?_ ?_ ?_ ?_ (by simp [PyLayer.toNet, AddLayer.toNet]) (by omega)
    · intro m hm
      change m ∈ [l.x, l.y] at hm
      simp only [List.mem_cons, List.not_mem_nil, or_false] at hm
      rcases hm with rfl | rfl
      · exact .inl hx
      · exact .inl hy
    · show ([l.x, l.y].map fun m => m.value.id).Nodup
      simpa using hne
    · simp [PyLayer.parameters, PyLayer.output, PyLayer.toNet, AddLayer.toNet, iu]
    · simp [PyLayer.parameters, PyLayer.output, PyLayer.toNet, AddLayer.toNet, iu]
    · intro m hm
      obtain rfl := List.mem_singleton.1 hm
      exact ⟨uu.1, uu.2.1, uu.2.2, ru⟩
  · intro env
    exact Grown.value (asIdx := asIdx) (invalidate := invalidate) (b := b) (l := .add l) env

theorem Grown.layerNorm (h : Grown asIdx invalidate inputs extra b) {x : Moments} (hx : x ∈ b.acts) (ux : x.Usable) (rx : x.gradRequired = true) {a : Nat} (ha : a < x.value.shape.length)
    {eps : ℝ} (he : 0 < eps) (redux : Bool) :
    ∃ (ga be y : Moments) (l : PyLayer ℝ) (ts : List (Task1 ℝ)), b.layerNorm x a eps redux = .ok (⟨b.acts ++ [y], b.layers ++ [l], b.next + 10⟩, ts) ∧
      Grown asIdx invalidate inputs extra ⟨b.acts ++ [y], b.layers ++ [l], b.next + 10⟩ ∧ l.output = y ∧ l.parameters = [ga, be] ∧ y.Usable ∧ y.gradRequired = true ∧
      y.value.shape = x.value.shape ∧ y.value.basetile = x.value.basetile ∧ b.next ≤ y.value.id ∧
      (∀ env, netEnv env (netOf asIdx invalidate (b.layers ++ [l])) y.value.id =
        lnOut a (x.value.shape.getD a 0) eps (env ga.value.id) (env be.value.id) (netEnv env (netOf asIdx invalidate b.layers) x.value.id)) ∧
      (∀ env, (l.toNet asIdx invalidate).Valid env ∧ (l.toNet asIdx invalidate).Regular env) ∧
      (ga.value.shape = [x.value.shape.getD a 0] ∧ be.value.shape = [x.value.shape.getD a 0]) ∧
      ∀ s : Store ℝ, ga.value.Ready s → be.value.Ready s → ∃ s', runAll1 ts s = .ok s' ∧ OnlyChanged [ga.value.id, be.value.id] s s' ∧
        ga.value.Holds s' (fun _ => 1) ∧ be.value.Holds s' (fun _ => 0) ∧ ga.value.Ready s' ∧ be.value.Ready s' := by
  obtain ⟨n, ts, e, rfl, fit, ⟨hnew, hnd⟩, hr, hts⟩ := C34_layer_norm_generate ux.1 ux.2 ha he b.next redux
  simp only [List.forall_mem_cons, List.not_mem_nil, IsEmpty.forall_iff, implies_true, and_true] at hnew hr
  obtain ⟨n1, n2, n3, n4, n5, n6, n7, n8, n9, n10⟩ := hnew
  obtain ⟨r1, r2, r3⟩ := hr
  have sm := fit.same
  have fb := fit.fiber
  simp only [List.forall_mem_cons, List.not_mem_nil, IsEmpty.forall_iff, implies_true, and_true] at sm fb
  obtain ⟨y1, y2, -, -, -⟩ := sm
  obtain ⟨g1, g2, g3, g4⟩ := fb
  have hx0 : n.x.value.id < b.next := h.act_lt hx _ (by simp [Moments.ids])
  have uy : n.y.Usable := ⟨n1.1, by rw [y2.1, y1.1], by rw [y2.2, y1.2]⟩
  have gi : ∀ m ∈ [n.y, n.gamma, n.beta], m.ids = [m.value.id, m.grad.id] := by
    intro m hm
    simp only [List.mem_cons, List.not_mem_nil, or_false] at hm
    rcases hm with rfl | rfl | rfl <;> simp [Moments.ids, Moments.gradIds, r1, r2, r3]
  have gi1 := gi n.y (by simp)
  have gi2 := gi n.gamma (by simp)
  have gi3 := gi n.beta (by simp)
  have eps2 : n.eps ^ 2 = eps := by
    rw [fit.eps, ← Real.sqrt_eq_rpow, Real.sq_sqrt fit.pos.le]
  refine ⟨n.gamma, n.beta, n.y, .layerNorm n, ts, ?_, ?_, rfl, rfl, uy, r1, y1.1, y1.2, n1.2.1, ?_, fun _ => ⟨trivial, trivial⟩, ⟨by rw [g1.shape]; simp, by rw [g3.shape]; simp⟩, hts⟩
  · rw [Builder.layerNorm, e, M.bind_ok]
  · refine h.add (l := .layerNorm n) ⟨⟨a, eps, fit⟩, by simp [rx, r1, r2, r3], ux.1⟩ ?_ ?_ ?_ ?_ ?_ ?_ (by omega)
    · intro m hm
      change m ∈ [n.x, n.gamma, n.beta] at hm
      rcases List.mem_cons.1 hm with rfl | hm
      · exact .inl hx
      · exact .inr (.inl hm)
    · show ([n.x, n.gamma, n.beta].map fun m => m.value.id).Nodup
      have hgb : n.gamma.value.id ≠ n.beta.value.id := by
        have h3 := (List.nodup_cons.1 (List.nodup_cons.1 (List.nodup_cons.1 hnd).2).2).1
        intro e
        exact h3 (by simp [e])
      have h1 := n3.2.1
      have h2 := n5.2.1
      simp only [List.map_cons, List.map_nil, List.nodup_cons, List.mem_cons, List.not_mem_nil, or_false, not_or, not_false_eq_true, List.nodup_nil, and_true]
      exact ⟨⟨by omega, by omega⟩, hgb⟩
    · show (([n.gamma, n.beta].flatMap Moments.ids) ++ (n.y.ids ++ [n.tmpYValue, n.tmpYGrad, n.mean, n.invStddev].map Tensor.id)).Nodup
      refine (List.Perm.nodup_iff ?_).2 hnd
      rw [List.perm_iff_count]
      intro i
      simp only [List.flatMap_cons, List.flatMap_nil, gi1, gi2, gi3, List.map_cons, List.map_nil, List.cons_append, List.nil_append, List.count_cons, List.count_nil]
      omega
    · show ∀ i ∈ ([n.gamma, n.beta].flatMap Moments.ids) ++ (n.y.ids ++ [n.tmpYValue, n.tmpYGrad, n.mean, n.invStddev].map Tensor.id), _
      simp only [List.flatMap_cons, List.flatMap_nil, gi1, gi2, gi3, List.map_cons, List.map_nil, List.cons_append, List.nil_append, List.forall_mem_cons, List.not_mem_nil,
        IsEmpty.forall_iff, implies_true, and_true, n1.2, n2.2, n3.2, n4.2, n5.2, n6.2, n7.2, n8.2, n9.2, n10.2]
    · intro m hm
      change m ∈ [n.gamma, n.beta, n.y] at hm
      simp only [List.mem_cons, List.not_mem_nil, or_false] at hm
      rcases hm with rfl | rfl | rfl
      · exact ⟨n3.1, by rw [g2.shape, g1.shape], by rw [g2.basetile, g1.basetile], r2⟩
      · exact ⟨n5.1, by rw [g4.shape, g3.shape], by rw [g4.basetile, g3.basetile], r3⟩
      · exact ⟨uy.1, uy.2.1, uy.2.2, r1⟩
    · intro T hT
      change T ∈ [n.tmpYValue, n.tmpYGrad, n.mean, n.invStddev] at hT
      simp only [List.mem_cons, List.not_mem_nil, or_false] at hT
      rcases hT with rfl | rfl | rfl | rfl
      · exact n7.1
      · exact n8.1
      · exact n9.1
      · exact n10.1
  · intro env
    refine (Grown.value (asIdx := asIdx) (invalidate := invalidate) (b := b) (l := .layerNorm n) env).trans ?_
    show lnOut n.axis.toNat n.l (n.eps ^ 2) (netEnv env _ n.gamma.value.id) (netEnv env _ n.beta.value.id) (netEnv env _ n.x.value.id) = _
    rw [eps2, fit.axis, fit.l, h.fresh env n3.2.1, h.fresh env n5.2.1]
    rfl

theorem Grown.attention (h : Grown asIdx invalidate inputs extra b) {x : Moments} (hx : x ∈ b.acts) (ux : x.Usable) {E S B D H tE tS tB tH : Nat} (hE : E = D * H)
    (hs : x.value.shape = [E, S, B]) (ht : x.value.basetile = [tE, tS, tB]) (pz : 0 < E ∧ 0 < S ∧ 0 < B) (pt : 0 < tE ∧ 0 < tS ∧ 0 < tB ∧ 0 < tH)
    {flash : Bool} (hfl : flash = true → tS ∣ S ∧ tB ∣ B ∧ tH ∣ H)
    {mask : Tensor} (hm : maskMoments mask ∈ extra) (mid : mask.id < b.next) (hmx : mask.id ≠ x.value.id) (ms : mask.shape = [S, S] ∧ mask.basetile = [tS, tS]) (val : ℝ) (redux : Bool) :
    ∃ (wq wk wv bq bk bv w bo y : Moments) (l : PyLayer ℝ), b.attention flash x H tH mask val redux = .ok ⟨b.acts ++ [y], b.layers ++ [l], b.next + 38⟩ ∧
      Grown asIdx invalidate inputs extra ⟨b.acts ++ [y], b.layers ++ [l], b.next + 38⟩ ∧ l.output = y ∧ l.parameters = [wq, wk, wv, bq, bk, bv, w, bo] ∧ y.Usable ∧ y.gradRequired = true ∧
      y.value.shape = [E, S, B] ∧ y.value.basetile = [tE, tS, tB] ∧ b.next ≤ y.value.id ∧
      (∀ env, netEnv env (netOf asIdx invalidate (b.layers ++ [l])) y.value.id =
        (let x := netEnv env (netOf asIdx invalidate b.layers) x.value.id
        let allowed := fun I => maskBool asIdx (env mask.id I)
        let at' := fun m : Moments => env m.value.id
        attnCombine H D (at' w) (attnHeads S (attnProj E (at' wv) x (at' bv)) (attnWeights S (attnMasked allowed val
          (attnScore D (attnProj E (at' wk) x (at' bk)) (attnProj E (at' wq) x (at' bq)))))) (at' bo))) ∧
      (∀ env, (l.toNet asIdx invalidate).Valid env ∧ (l.toNet asIdx invalidate).Regular env) ∧
      [wq, wk, wv, bq, bk, bv, w, bo].map (fun m => m.value.shape) = [[H, D, E], [H, D, E], [H, D, E], [D, H], [D, H], [D, H], [E, H, D], [E]] := by
  have hxi := ux.is hs ht
  have hgen : ∃ l, (if flash then Attention.flashGenerate x x x H tH b.next true (some mask) val redux else Attention.generate x x x H tH b.next true (some mask) val redux) = .ok l ∧
      l.xq = x ∧ l.xk = x ∧ l.xv = x ∧ l.mask = some mask ∧ l.val = val ∧ l.Fits ⟨E, E, E, S, B, H, D⟩ ⟨tE, tE, tE, tS, tB, tH, D⟩ ∧
      (flash = true → FlashTiles ⟨E, E, E, S, B, H, D⟩ ⟨tE, tE, tE, tS, tB, tH, D⟩) ∧
      (l.biasQ.isSome = true ∧ l.biasK.isSome = true ∧ l.biasV.isSome = true ∧ l.biasOut.isSome = true) ∧
      (∀ m ∈ l.params ++ [l.y], m.value.WF ∧ m.grad.shape = m.value.shape ∧ m.grad.basetile = m.value.basetile ∧ m.gradRequired = true) ∧ (∀ T ∈ l.temps, T.WF) ∧
      (let new := l.params.flatMap Moments.ids ++ (l.y.ids ++ l.temps.map Tensor.id); new.Nodup ∧ ∀ i ∈ new, b.next ≤ i ∧ i < b.next + 38) := by
    cases flash with
    | false =>
      obtain ⟨l, e, lq, lk, lv, lm, lval, fit, r⟩ := C47_generate (z := ⟨E, E, E, S, B, H, D⟩) (t := ⟨tE, tE, tE, tS, tB, tH, D⟩) hE rfl hxi hxi hxi
        ⟨pz.1, pz.1, pz.1, pz.2.1, pz.2.2⟩ ⟨pt.1, pt.1, pt.1, pt.2.1, pt.2.2.1, pt.2.2.2⟩ true (some mask) (by rintro T ⟨⟩; exact ms) val redux b.next
      exact ⟨l, e, lq, lk, lv, lm, lval, fit, by simp, r⟩
    | true =>
      obtain ⟨d1, d2, d3⟩ := hfl rfl
      obtain ⟨l, e, lq, lk, lv, lm, lval, fit, ft, r⟩ := C50_generate (z := ⟨E, E, E, S, B, H, D⟩) (t := ⟨tE, tE, tE, tS, tB, tH, D⟩) hE rfl hxi hxi hxi
        ⟨pz.1, pz.1, pz.1, pz.2.1, pz.2.2⟩ ⟨pt.1, pt.1, pt.1, pt.2.1, pt.2.2.1, pt.2.2.2⟩ d3 true (some mask) (by rintro T ⟨⟩; exact ms) val redux b.next
      exact ⟨l, e, lq, lk, lv, lm, lval, fit, fun _ => ft d1 d2, r⟩
  obtain ⟨l, e, lq, lk, lv, lm, lval, fit, ft, ⟨i1, i2, i3, i4⟩, hwf, htw, hnd, hlo⟩ := hgen
  obtain ⟨ly, hly⟩ : ∃ ly : PyLayer ℝ, ly = if flash then .flash l else .attention l := ⟨_, rfl⟩
  have hpar : ly.parameters = l.params := by rw [hly]; cases flash <;> rfl
  have hins : (ly.toNet asIdx invalidate).ins = l.ins := by rw [hly]; cases flash <;> rfl
  have htemps : (ly.toNet asIdx invalidate).temps = l.temps := by rw [hly]; cases flash <;> rfl
  have houtp : ly.output = l.y := by rw [hly]; cases flash <;> rfl
  have hF : (ly.toNet asIdx invalidate).F = l.F l.dims asIdx := by rw [hly]; cases flash <;> rfl
  have hfits : ly.Fits := by
    rw [hly]
    cases flash
    · exact ⟨_, _, fit⟩
    · exact ⟨⟨_, _, fit, ft rfl⟩, by rw [lm]; rfl⟩
  have hvr : ∀ env, (ly.toNet asIdx invalidate).Valid env ∧ (ly.toNet asIdx invalidate).Regular env := by
    intro env; rw [hly]; cases flash <;> exact ⟨trivial, trivial⟩
  obtain ⟨bq, e1⟩ := Option.isSome_iff_exists.1 i1
  obtain ⟨bk, e2⟩ := Option.isSome_iff_exists.1 i2
  obtain ⟨bv, e3⟩ := Option.isSome_iff_exists.1 i3
  obtain ⟨bo, e4⟩ := Option.isSome_iff_exists.1 i4
  have ep : l.params = [l.wq, l.wk, l.wv, bq, bk, bv, l.w, bo] := by simp [Attention.params, e1, e2, e3, e4]
  have eins : l.ins = [x, l.wq, l.wk, l.wv, l.w, bq, bk, bv, bo, maskMoments mask] := by
    simp [Attention.ins, e1, e2, e3, e4, lq, lk, lv, lm]
  have hx0 : x.value.id < b.next := h.act_lt hx _ (by simp [Moments.ids])
  have hy := hwf l.y (by simp)
  have hid : ∀ m ∈ l.params, b.next ≤ m.value.id := fun m hm =>
    (hlo m.value.id (List.mem_append_left _ (List.mem_flatMap.2 ⟨m, hm, by simp [Moments.ids]⟩))).1
  have hpn : (l.params.map fun m => m.value.id).Nodup := values_nodup (List.nodup_append.1 hnd).1
  refine ⟨l.wq, l.wk, l.wv, bq, bk, bv, l.w, bo, l.y, ly, ?_, ?_, houtp, hpar.trans ep, ⟨hy.1, hy.2.1, hy.2.2.1⟩, hy.2.2.2, fit.y.1, fit.y.2.1, ?_, ?_, hvr, ?_⟩
  · rw [Builder.attention]
    refine (congrArg (· >>= _) e).trans ?_
    rw [M.bind_ok, hly]
  · rw [← houtp]
    refine h.add (l := ly) (next := b.next + 38) hfits ?_ ?_ ?_ ?_ ?_ ?_ (by omega)
    rotate_left 2
    · rw [hpar, houtp, htemps]; exact hnd
    · rw [hpar, houtp, htemps]; exact hlo
    · rw [hpar, houtp]; exact hwf
    · rw [htemps]; exact htw
    · intro m hm'
      rw [hins] at hm'
      rw [hpar, ep]
      rw [eins] at hm'
      simp only [List.mem_cons, List.not_mem_nil, or_false] at hm' ⊢
      rcases hm' with rfl | rfl | rfl | rfl | rfl | rfl | rfl | rfl | rfl | rfl
      · exact .inl hx
      all_goals simp [hm]
    · rw [hins, eins]
      have hp : ([x, l.wq, l.wk, l.wv, l.w, bq, bk, bv, bo, maskMoments mask].map fun m => m.value.id).Perm ([x.value.id, mask.id] ++ l.params.map fun m => m.value.id) := by
        rw [List.perm_iff_count]
        intro i
        simp only [ep, List.map_cons, List.map_nil, List.cons_append, List.nil_append, List.count_cons, List.count_nil, maskMoments]
        omega
      rw [hp.nodup_iff, List.nodup_append]
      refine ⟨by simp [Ne.symm hmx], hpn, ?_⟩
      intro i hi j hj
      obtain ⟨m, hm', rfl⟩ := List.mem_map.1 hj
      have := hid m hm'
      simp only [List.mem_cons, List.not_mem_nil, or_false] at hi
      omega
  · exact (hlo l.y.value.id (List.mem_append_right _ (List.mem_append_left _ (by simp [Moments.ids])))).1
  · intro env
    rw [← houtp]
    refine (Grown.value (asIdx := asIdx) (invalidate := invalidate) (b := b) (l := ly) env).trans ?_
    have hmv := h.input (m := maskMoments mask) (List.mem_append_right _ hm) env
    have hp : ∀ m ∈ l.params, netEnv env (netOf asIdx invalidate b.layers) m.value.id = env m.value.id := fun m hm => h.fresh env (hid m hm)
    rw [ep] at hp
    simp only [List.forall_mem_cons, List.not_mem_nil, IsEmpty.forall_iff, implies_true, and_true] at hp
    obtain ⟨p1, p2, p3, p4, p5, p6, p7, p8⟩ := hp
    rw [hF, fit.dims]
    change netEnv env (netOf asIdx invalidate b.layers) mask.id = _ at hmv
    have b1 : ∀ (m : Moments) env', biasAt (some m) env' = env' m.value.id := fun _ _ => rfl
    have m1 : ∀ env', maskAt asIdx (some mask) env' = fun I => maskBool asIdx (env' mask.id I) := fun _ => rfl
    simp only [Attention.F, Attention.headsOut, Attention.A, Attention.Q, Attention.K, Attention.V, lq, lk, lv, lm, lval, e1, e2, e3, e4, b1, m1, p1, p2, p3, p4, p5, p6, p7, p8, hmv]
    rfl
  · have s1 := (fit.bqkv (some bq) (by simp [e1]) bq rfl).1
    have s2 := (fit.bqkv (some bk) (by simp [e2]) bk rfl).1
    have s3 := (fit.bqkv (some bv) (by simp [e3]) bv rfl).1
    simp only [List.map_cons, List.map_nil, fit.wq.1, fit.wk.1, fit.wv.1, fit.w.1, (fit.bo bo e4).1, s1, s2, s3]

theorem Builder.linear_other {b b' : Builder ℝ} {x y : Moments} {side : Side} {n : Int} {S B : List Nat} {bias redux : Bool} {l : PyLayer ℝ} {k : Nat} (hb : b'.next = b.next)
    (e : b.linear x side n S B bias redux = .ok ⟨b.acts ++ [y], b.layers ++ [l], k⟩) :
    b'.linear x side n S B bias redux = .ok ⟨b'.acts ++ [y], b'.layers ++ [l], k⟩ := by
  rw [Builder.linear] at e ⊢
  rw [hb]
  cases hg : Linear.generate x side .noTrans n S B b.next bias redux with
  | error er => rw [hg] at e; cases e
  | ok l' =>
    rw [hg, M.bind_ok] at e
    rw [M.bind_ok]
    simp only [Except.ok.injEq, Builder.mk.injEq, List.append_cancel_left_eq, List.cons.injEq, and_true] at e
    obtain ⟨rfl, rfl, rfl⟩ := e
    rfl

theorem Builder.act_other {b b' : Builder ℝ} {x y : Moments} {name : String} {l : PyLayer ℝ} {k : Nat} (hb : b'.next = b.next)
    (e : b.act x name = .ok ⟨b.acts ++ [y], b.layers ++ [l], k⟩) : b'.act x name = .ok ⟨b'.acts ++ [y], b'.layers ++ [l], k⟩ := by
  rw [Builder.act] at e ⊢
  rw [hb]
  cases hg : Act.generate x name b.next with
  | error er => rw [hg] at e; cases e
  | ok l' =>
    rw [hg, M.bind_ok] at e
    rw [M.bind_ok]
    simp only [Except.ok.injEq, Builder.mk.injEq, List.append_cancel_left_eq, List.cons.injEq, and_true] at e
    obtain ⟨rfl, rfl, rfl⟩ := e
    rfl

/-- A linear layer along the first dimension. -/
theorem Grown.linearR (h : Grown asIdx invalidate inputs extra b) {x : Moments} (hxm : x ∈ b.acts) (hx : x.Usable) {E tE : Nat} {X T : List Nat} (hs : x.value.shape = E :: X)
    (ht : x.value.basetile = tE :: T) {S B : Nat} (hS : 0 < S) (hB : 0 < B) (bias redux : Bool) :
    ∃ (w y : Moments) (bm : Option Moments) (l : PyLayer ℝ), (∀ b' : Builder ℝ, b'.next = b.next → b'.linear x .R 1 [S] [B] bias redux = .ok ⟨b'.acts ++ [y], b'.layers ++ [l], b.next + 6⟩) ∧
      Grown asIdx invalidate inputs extra ⟨b.acts ++ [y], b.layers ++ [l], b.next + 6⟩ ∧ l.output = y ∧ l.parameters = w :: bm.toList ∧ bm.isSome = bias ∧ y.Usable ∧ y.gradRequired = true ∧
      y.value.shape = S :: X ∧ y.value.basetile = B :: T ∧ b.next ≤ y.value.id ∧ w.value.shape = [S, E] ∧ (∀ m ∈ bm, m.value.shape = [S]) ∧
      (∀ env, netEnv env (netOf asIdx invalidate (b.layers ++ [l])) y.value.id =
        linearOut .R .noTrans 1 [E] (netEnv env (netOf asIdx invalidate b.layers) x.value.id) (env w.value.id) (biasValue bm env)) ∧
      ∀ env, (l.toNet asIdx invalidate).Valid env ∧ (l.toNet asIdx invalidate).Regular env := by
  have hS' : Pos [S] := by simpa [Pos] using hS
  have hB' : Pos [B] := by simpa [Pos] using hB
  obtain ⟨w, y, bm, l, e, g, lo, lp, par, hb, uy, ry, ys, yt, ws, bs, hv⟩ := h.linear hxm hx .R one_pos (by simp [Tensor.ndim, hs]) hS' hB' rfl bias (fun _ => rfl) redux
  have e' := id e
  rw [Builder.linear, Linear.generate_eq hx.1 .R .noTrans one_pos hS' hB' rfl bias (fun _ => rfl) b.next redux, M.bind_ok] at e'
  simp only [Except.ok.injEq, Builder.mk.injEq, List.append_cancel_left_eq, List.cons.injEq, and_true] at e'
  obtain ⟨ey, el⟩ := e'
  refine ⟨w, y, bm, l, fun b' hb' => Builder.linear_other hb' e, g, lo, par, hb, uy, ry, ?_, ?_, ?_, ?_, bs, ?_, ?_⟩
  · rw [ys, hs]; rfl
  · rw [yt, ht]; rfl
  · rw [← ey]; exact Nat.le_add_right _ _
  · rw [ws, hs]; rfl
  · intro env
    rw [hv, hs]
    rfl
  · intro env
    rw [← el]
    exact ⟨trivial, trivial⟩

/-- An activation layer. -/
theorem Grown.actR (h : Grown asIdx invalidate inputs extra b) {x : Moments} (hxm : x ∈ b.acts) (hx : x.Usable) {name : String}
    {k : ActKind} (hk : (name, k) ∈ [("relu", ActKind.relu), ("gelu", .gelu), ("gelutanh", .gelutanh)]) :
    ∃ (y : Moments) (l : PyLayer ℝ), (∀ b' : Builder ℝ, b'.next = b.next → b'.act x name = .ok ⟨b'.acts ++ [y], b'.layers ++ [l], b.next + 2⟩) ∧
      Grown asIdx invalidate inputs extra ⟨b.acts ++ [y], b.layers ++ [l], b.next + 2⟩ ∧ l.output = y ∧ l.parameters = [] ∧ y.Usable ∧ y.gradRequired = true ∧
      y.value.shape = x.value.shape ∧ y.value.basetile = x.value.basetile ∧ b.next ≤ y.value.id ∧
      (∀ env, netEnv env (netOf asIdx invalidate (b.layers ++ [l])) y.value.id = fun I => k.spec (netEnv env (netOf asIdx invalidate b.layers) x.value.id I)) ∧
      ∀ env, (l.toNet asIdx invalidate).Valid env ∧ (k ≠ .relu → (l.toNet asIdx invalidate).Regular env) := by
  obtain ⟨y, l, e, g, lo, -, par, uy, ry, ys, yt, hv⟩ := h.actLayer hxm hx hk
  have e' := id e
  obtain ⟨l', el, hlx, hlk, hf, hw, hw', hid⟩ := (C35_act_generate hx.1 hx.2 name b.next).1 k hk
  rw [Builder.act, el, M.bind_ok] at e'
  simp only [Except.ok.injEq, Builder.mk.injEq, List.append_cancel_left_eq, List.cons.injEq, and_true] at e'
  obtain ⟨ey, el'⟩ := e'
  refine ⟨y, l, fun b' hb' => Builder.act_other hb' e, g, lo, par, uy, ry, ys, yt, ?_, hv, ?_⟩
  · rw [← ey]
    simp [Moments.ids, Moments.gradIds] at hid
    omega
  · intro env
    rw [← el']
    exact ⟨trivial, fun hk' e => absurd (hlk ▸ e) hk'⟩

end NNTile
