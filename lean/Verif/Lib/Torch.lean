import Verif.Spec.Torch
import Verif.Props.C46
import Mathlib.Tactic.Ring
import Mathlib.Tactic.Linarith
/-!
# Lemmas about the exchange of parameters with PyTorch
-/
namespace NNTile
variable {α : Type}

theorem InBox_reverse {S I : List Nat} : InBox S.reverse I ↔ InBox S I.reverse := by
  rw [InBox_iff, InBox_iff]
  simp only [List.length_reverse]
  refine and_congr_right fun hl => ?_
  constructor
  · intro h k hk hk'
    have := h (I.length - 1 - k) (by omega) (by omega)
    simp only [List.getElem_reverse] at this ⊢
    convert this using 2
    omega
  · intro h k hk hk'
    have := h (I.length - 1 - k) (by omega) (by omega)
    simp only [List.getElem_reverse] at this ⊢
    convert this using 2
    all_goals omega

/-! ### Arrays -/

theorem NdArray.Is.congr {a : NdArray α} {S : List Nat} {x y : List Nat → α} (h : a.Is S x) (hxy : ∀ I, InBox S I → x I = y I) : a.Is S y :=
  ⟨h.1, fun I hI => (h.2 I hI).trans (by rw [hxy I hI])⟩

theorem NdArray.Is.T {a : NdArray α} {S : List Nat} {x : List Nat → α} (h : a.Is S x) : a.T.Is S.reverse (fun I => x I.reverse) :=
  ⟨by rw [NdArray.T, h.1], fun I hI => h.2 _ (InBox_reverse.1 hI)⟩

theorem NdArray.Is.reshape {a : NdArray α} {S : List Nat} {x : List Nat → α} (h : a.Is S x) (hS : Pos S) {S' : List Nat} (hp : S'.prod = S.prod) :
    ∃ b, a.reshape S' = .ok b ∧ b.Is S' (fun I => x (unlin S.reverse (lin S'.reverse I.reverse)).reverse) := by
  refine ⟨_, by rw [NdArray.reshape, throwIf_neg (by rw [h.1]; exact not_not.2 hp), M.bind_ok], rfl, fun I _ => ?_⟩
  simp only
  rw [h.1]
  refine h.2 _ (InBox_reverse.1 (unlin_inBox (fun y hy => hS y (List.mem_reverse.1 hy)) _))

theorem NdArray.Is.toF {a : NdArray α} {S : List Nat} {x : List Nat → α} (h : a.Is S x) : a.toF.shape = S ∧ a.toF.data.size = S.prod ∧ a.toF.Holds x := by
  obtain ⟨h1, h2⟩ := h
  subst h1
  refine ⟨rfl, rfl, fun I hI => ?_⟩
  change InBox a.shape I at hI
  show a.elem (unlin a.shape (lin a.shape I)) = _
  rw [unlin_lin hI]
  exact h2 I hI

theorem NdArray.Is.slice2 {a : NdArray α} {m n lo k : Nat} {x : List Nat → α} (h : a.Is [m, n] x) (hk : lo + k ≤ n) :
    ∃ b, a.slice 1 lo (lo + k) = .ok b ∧ b.Is [m, k] (fun I => x [I.getD 0 0, lo + I.getD 1 0]) := by
  refine ⟨_, by rw [NdArray.slice, throwIf_neg (by rw [h.1]; simp), M.bind_ok], ?_, ?_⟩
  · simp only [h.1, List.getD_cons_succ, List.getD_cons_zero, sliceLen, List.set_cons_succ, List.set_cons_zero]
    congr 2
    omega
  · intro I hI
    obtain ⟨i, j, rfl⟩ := List.length_eq_two.1 hI.length
    simp only [InBox_cons, InBox_nil, and_true] at hI
    exact h.2 [i, lo + j] (by simp; omega)

theorem NdArray.Is.slice1 {a : NdArray α} {n lo k : Nat} {x : List Nat → α} (h : a.Is [n] x) (hk : lo + k ≤ n) :
    ∃ b, a.slice 0 lo (lo + k) = .ok b ∧ b.Is [k] (fun I => x [lo + I.getD 0 0]) := by
  refine ⟨_, by rw [NdArray.slice, throwIf_neg (by rw [h.1]; simp), M.bind_ok], ?_, ?_⟩
  · simp only [h.1, List.getD_cons_zero, sliceLen, List.set_cons_zero]
    congr 1
    omega
  · intro I hI
    obtain ⟨i, rfl⟩ := List.length_eq_one_iff.1 hI.length
    simp only [InBox_cons, InBox_nil, and_true] at hI
    exact h.2 [lo + i] (by simp; omega)

theorem NdArray.Is.setSlice2 {a b : NdArray α} {m n lo k : Nat} {x y : List Nat → α} (h : a.Is [m, n] x) (hb : b.Is [m, k] y) (hk : lo + k ≤ n) :
    ∃ c, a.setSlice 1 lo (lo + k) b = .ok c ∧ c.Is [m, n] (fun I => if lo ≤ I.getD 1 0 ∧ I.getD 1 0 < lo + k then y [I.getD 0 0, I.getD 1 0 - lo] else x I) := by
  have hs : b.shape = a.shape.set 1 (sliceLen (a.shape.getD 1 0) lo (lo + k)) := by
    rw [hb.1, h.1]
    simp only [List.getD_cons_succ, List.getD_cons_zero, sliceLen, List.set_cons_succ, List.set_cons_zero]
    congr 2
    omega
  refine ⟨_, by rw [NdArray.setSlice, throwIf_neg (by rw [h.1]; simp), M.bind_ok, throwIf_neg (not_not.2 hs), M.bind_ok], ?_, ?_⟩
  · exact h.1
  intro I hI
  obtain ⟨i, j, rfl⟩ := List.length_eq_two.1 hI.length
  have hI' := hI
  simp only [InBox_cons, InBox_nil, and_true] at hI'
  simp only [List.getD_cons_succ, List.getD_cons_zero, List.set_cons_succ, List.set_cons_zero]
  by_cases hc : lo ≤ j ∧ j < lo + k
  · rw [if_pos hc, if_pos hc]
    exact hb.2 _ (by simp; omega)
  · rw [if_neg hc, if_neg hc]
    exact h.2 _ hI

theorem NdArray.Is.setSlice1 {a b : NdArray α} {n lo k : Nat} {x y : List Nat → α} (h : a.Is [n] x) (hb : b.Is [k] y) (hk : lo + k ≤ n) :
    ∃ c, a.setSlice 0 lo (lo + k) b = .ok c ∧ c.Is [n] (fun I => if lo ≤ I.getD 0 0 ∧ I.getD 0 0 < lo + k then y [I.getD 0 0 - lo] else x I) := by
  have hs : b.shape = a.shape.set 0 (sliceLen (a.shape.getD 0 0) lo (lo + k)) := by
    rw [hb.1, h.1]
    simp only [List.getD_cons_zero, sliceLen, List.set_cons_zero]
    congr 1
    omega
  refine ⟨_, by rw [NdArray.setSlice, throwIf_neg (by rw [h.1]; simp), M.bind_ok, throwIf_neg (not_not.2 hs), M.bind_ok], ?_, ?_⟩
  · exact h.1
  intro I hI
  obtain ⟨i, rfl⟩ := List.length_eq_one_iff.1 hI.length
  have hI' := hI
  simp only [InBox_cons, InBox_nil, and_true] at hI'
  simp only [List.getD_cons_zero, List.set_cons_zero]
  by_cases hc : lo ≤ i ∧ i < lo + k
  · rw [if_pos hc, if_pos hc]
    exact hb.2 _ (by simp; omega)
  · rw [if_neg hc, if_neg hc]
    exact h.2 _ hI

/-! ### Loading of parameters -/

/-- The first `k` parameters hold the given contents. -/
def HoldUpTo (params : List Moments) (xs : List (List Nat → α)) (k : Nat) (s : Store α) : Prop :=
  ∀ (i : Nat) (m : Moments) (x : List Nat → α), i < k → params[i]? = some m → xs[i]? = some x → m.value.Holds s x

/-- A step of `from_torch` which loads the parameters from `k` up to `n`. -/
def Loads (params : List Moments) (xs : List (List Nat → α)) (tmpId : Nat) (f : Nat × Store α → M (Nat × Store α)) (k n : Nat) : Prop :=
  ∀ s, (∀ m ∈ params, m.value.Ready s) → HoldUpTo params xs k s → ∃ s', f (k, s) = .ok (n, s') ∧ (∀ m ∈ params, m.value.Ready s') ∧ HoldUpTo params xs n s' ∧
    OnlyChanged (tmpId :: params.map fun m => m.value.id) s s'

theorem Loads.seq {params : List Moments} {xs : List (List Nat → α)} {tmpId : Nat} {f g : Nat × Store α → M (Nat × Store α)} {k n n' : Nat} (h : Loads params xs tmpId f k n)
    (h' : Loads params xs tmpId g n n') : Loads params xs tmpId (fun st => f st >>= g) k n' := by
  intro s hr hh
  obtain ⟨s1, e1, r1, v1, o1⟩ := h s hr hh
  obtain ⟨s2, e2, r2, v2, o2⟩ := h' s1 r1 v1
  refine ⟨s2, ?_, r2, v2, (o1.trans o2).mono fun i hi => (List.mem_append.1 hi).elim id id⟩
  show (f (k, s) >>= g) = _
  rw [e1]
  exact e2

theorem Loads.eq {params : List Moments} {xs : List (List Nat → α)} {tmpId : Nat} {f g : Nat × Store α → M (Nat × Store α)} {k n : Nat} (h : Loads params xs tmpId f k n)
    (e : ∀ st, g st = f st) : Loads params xs tmpId g k n := by
  rw [show g = f from funext e]
  exact h

/-- What is needed of the list of parameters. -/
structure ParamsOk (params : List Moments) (tmpId : Nat) : Prop where
  nodup : (params.map fun m => m.value.id).Nodup
  tmp : ∀ m ∈ params, tmpId ≠ m.value.id
  shape : ∀ m ∈ params, m.value.shape ≠ []

theorem pyItem_moments {params : List Moments} {k : Nat} {m : Moments} (h : params[k]? = some m) : pyItem (params.map PyEntry.moments) k = .ok (.moments m) := by
  rw [pyItem, List.getElem?_map, h]
  rfl

theorem params_ids_inj {params : List Moments} (hn : (params.map fun m => m.value.id).Nodup) {i j : Nat} {m m' : Moments} (hi : params[i]? = some m) (hj : params[j]? = some m')
    (e : m.value.id = m'.value.id) : i = j := by
  have h1 : (params.map fun m => m.value.id)[i]? = some m.value.id := by rw [List.getElem?_map, hi]; rfl
  have h2 : (params.map fun m => m.value.id)[j]? = some m.value.id := by rw [List.getElem?_map, hj, e]; rfl
  obtain ⟨b1, e1⟩ := List.getElem?_eq_some_iff.1 h1
  obtain ⟨b2, e2⟩ := List.getElem?_eq_some_iff.1 h2
  exact (List.Nodup.getElem_inj_iff hn).1 (e1.trans e2.symm)

theorem Loads.one {params : List Moments} {xs : List (List Nat → α)} {tmpId : Nat} (hp : ParamsOk params tmpId) {k : Nat} {m : Moments} {x : List Nat → α} (hm : params[k]? = some m)
    (hx : xs[k]? = some x) {a : NdArray α} (ha : a.Is m.value.shape x) : Loads params xs tmpId (loadParam (params.map PyEntry.moments) tmpId a) k (k + 1) := by
  intro s hr hh
  have hmem : m ∈ params := List.mem_of_getElem? hm
  obtain ⟨f1, f2, f3⟩ := ha.toF
  have hs := hp.shape m hmem
  obtain ⟨s', e, v, r, o⟩ := C46_from_array (x := x) (hr m hmem) (hp.tmp m hmem) (a := a.toF) ⟨by rw [f1, if_neg hs], by rw [f1, f2]⟩ (by
    intro I hI
    simp only [npIndex, if_neg hs]
    exact f3 I hI)
  refine ⟨s', ?_, ?_, ?_, o.mono ?_⟩
  · rw [loadParam, pyItem_moments hm, M.bind_ok, PyEntry.value, M.bind_ok, e, M.bind_ok]
  · intro m' hm'
    by_cases he : m'.value.id = m.value.id
    · obtain ⟨i, hi⟩ := List.mem_iff_getElem?.1 hm'
      obtain rfl := params_ids_inj hp.nodup hi hm he
      obtain rfl : m' = m := Option.some.inj (hi.symm.trans hm)
      exact r
    · refine o.ready (hr m' hm') ?_
      simp only [List.mem_cons, List.not_mem_nil, or_false, not_or]
      exact ⟨he, Ne.symm (hp.tmp m' hm')⟩
  · intro i m' x' hi hm' hx'
    by_cases hik : i = k
    · subst hik
      obtain rfl : m' = m := Option.some.inj (hm'.symm.trans hm)
      obtain rfl : x' = x := Option.some.inj (hx'.symm.trans hx)
      exact v
    · refine o.holds (hh i m' x' (by omega) hm' hx') ?_
      simp only [List.mem_cons, List.not_mem_nil, or_false, not_or]
      exact ⟨fun h => hik (params_ids_inj hp.nodup hm' hm h), Ne.symm (hp.tmp m' (List.mem_of_getElem? hm'))⟩
  · intro i hi
    simp only [List.mem_cons, List.not_mem_nil, or_false] at hi ⊢
    rcases hi with rfl | rfl
    · exact .inr (List.mem_map.2 ⟨m, hmem, rfl⟩)
    · exact .inl rfl

/-- Three steps. -/
theorem Loads.three {params : List Moments} {xs : List (List Nat → α)} {tmpId : Nat} {f : Nat → Nat × Store α → M (Nat × Store α)} {k : Nat}
    (h : ∀ i, i < 3 → Loads params xs tmpId (f i) (k + i) (k + i + 1)) : Loads params xs tmpId (fun st => forN 3 f st) k (k + 3) := by
  refine (((h 0 (by omega)).seq (h 1 (by omega))).seq (h 2 (by omega))).eq fun st => ?_
  rw [forN_succ, forN_succ, forN_succ, forN_zero, M.bind_ok]

theorem fromTorchParams_append (E H : Nat) (params : List PyEntry) (tmpId : Nat) (l l' : List (List String × NdArray α)) (st : Nat × Store α) :
    fromTorchParams E H params tmpId (l ++ l') st = (fromTorchParams E H params tmpId l st >>= fromTorchParams E H params tmpId l') := by
  induction l generalizing st with
  | nil => rfl
  | cons q l ih =>
    rw [List.cons_append, fromTorchParams, fromTorchParams, bind_assoc]
    congr 1
    funext st'
    exact ih st'

/-! ### One PyTorch parameter -/

section
variable {params : List Moments} {xs : List (List Nat → α)} {tmpId : Nat} (hp : ParamsOk params tmpId) {k : Nat} {E H D : Nat}
include hp

/-- A parameter which is transposed (or is a vector). -/
theorem Loads.plain {name : List String} {layer last : String} (h2 : nameBack name 2 = .ok layer) (h1 : nameBack name 1 = .ok last) (n1 : layer ≠ "lm_head") (n2 : layer ≠ "c_attn")
    (n3 : layer = "c_proj" → ∃ up, nameBack name 3 = .ok up ∧ up ≠ "attn") {m : Moments} {x y : List Nat → α} {S : List Nat} {p : NdArray α} (ha : p.Is S y) (hm : params[k]? = some m)
    (hx : xs[k]? = some x) (hS : m.value.shape = S.reverse) (hxy : ∀ I, InBox S.reverse I → y I.reverse = x I) :
    Loads params xs tmpId (fromTorchParam E H (params.map PyEntry.moments) tmpId name p) k (k + 1) := by
  refine (Loads.one hp hm hx (a := p.T) ?_).eq fun st => ?_
  · rw [hS]
    exact ha.T.congr hxy
  · rw [fromTorchParam, h2, M.bind_ok, h1, M.bind_ok, if_neg n1, if_neg (fun h => n2 h.1), if_neg (fun h => n2 h.1)]
    by_cases h : layer = "c_proj"
    · obtain ⟨up, e, hu⟩ := n3 h
      rw [if_pos h, e, M.bind_ok, if_neg hu]
    · rw [if_neg h]

theorem Loads.lmHead {name : List String} {last : String} (h2 : nameBack name 2 = .ok "lm_head") (h1 : nameBack name 1 = .ok last) {m : Moments} {x : List Nat → α} {p : NdArray α}
    (hm : params[k]? = some m) (hx : xs[k]? = some x) (ha : p.Is m.value.shape x) :
    Loads params xs tmpId (fromTorchParam E H (params.map PyEntry.moments) tmpId name p) k (k + 1) := by
  refine (Loads.one hp hm hx ha).eq fun st => ?_
  rw [fromTorchParam, h2, M.bind_ok, h1, M.bind_ok, if_pos rfl]

theorem Loads.attnW {name : List String} (h2 : nameBack name 2 = .ok "c_attn") (h1 : nameBack name 1 = .ok "weight") (hE : E = D * H) (hE0 : 0 < E) {y : List Nat → α} {p : NdArray α}
    (ha : p.Is [E, 3 * E] y) (hm : ∀ i, i < 3 → ∃ m x, params[k + i]? = some m ∧ xs[k + i]? = some x ∧ m.value.shape = [H, D, E] ∧
      ∀ h d e, h < H → d < D → e < E → x [h, d, e] = y [e, i * E + (h * D + d)]) :
    Loads params xs tmpId (fromTorchParam E H (params.map PyEntry.moments) tmpId name p) k (k + 3) := by
  have hH : 0 < H := Nat.pos_of_ne_zero (by rintro rfl; simp at hE; omega)
  have hD : 0 < D := Nat.pos_of_ne_zero (by rintro rfl; simp at hE; omega)
  have hEH : E / H = D := by rw [hE, Nat.mul_div_cancel _ hH]
  refine (Loads.three fun i hi => ?_).eq fun st => by
    rw [fromTorchParam, h2, M.bind_ok, h1, M.bind_ok, if_neg (by decide), if_pos ⟨rfl, rfl⟩]
  obtain ⟨m, x, em, ex, hs, hx⟩ := hm i hi
  obtain ⟨b, eb, hb⟩ := ha.slice2 (lo := i * E) (k := E) (by nlinarith)
  obtain ⟨c, ec, hc⟩ := hb.T.reshape (S' := [H, D, E]) (by simp [Pos, hE0]) (by simp [hE]; ring)
  refine (Loads.one hp em ex (a := c) ?_).eq fun st => ?_
  · rw [hs]
    refine hc.congr fun I hI => ?_
    obtain ⟨h, d, e, rfl⟩ := List.length_eq_three.1 hI.length
    simp only [InBox_cons, InBox_nil, and_true] at hI
    have hlt : d + D * h < E := by
      rw [hE]
      calc d + D * h < D + D * h := by omega
        _ = D * (h + 1) := by ring
        _ ≤ D * H := Nat.mul_le_mul_left _ hI.1
    simp only [List.reverse_cons, List.reverse_nil, List.nil_append, List.cons_append, lin, unlin, Nat.mul_zero, Nat.add_zero, List.getD_cons_zero, List.getD_cons_succ]
    rw [Nat.add_mul_mod_self_left, Nat.mod_eq_of_lt hI.2.2, Nat.add_mul_div_left _ _ hE0, Nat.div_eq_of_lt hI.2.2, Nat.zero_add, Nat.mod_eq_of_lt hlt,
      hx h d e hI.1 hI.2.1 hI.2.2, Nat.mul_comm h D, Nat.add_comm d]
  · rw [show (i + 1) * E = i * E + E by ring, eb, M.bind_ok, hEH, ec, M.bind_ok]

theorem Loads.attnB {name : List String} (h2 : nameBack name 2 = .ok "c_attn") (h1 : nameBack name 1 = .ok "bias") (hE : E = D * H) (hE0 : 0 < E) {y : List Nat → α} {p : NdArray α}
    (ha : p.Is [3 * E] y) (hm : ∀ i, i < 3 → ∃ m x, params[k + i]? = some m ∧ xs[k + i]? = some x ∧ m.value.shape = [D, H] ∧
      ∀ d h, d < D → h < H → x [d, h] = y [i * E + (h * D + d)]) :
    Loads params xs tmpId (fromTorchParam E H (params.map PyEntry.moments) tmpId name p) k (k + 3) := by
  have hH : 0 < H := Nat.pos_of_ne_zero (by rintro rfl; simp at hE; omega)
  have hD : 0 < D := Nat.pos_of_ne_zero (by rintro rfl; simp at hE; omega)
  have hEH : E / H = D := by rw [hE, Nat.mul_div_cancel _ hH]
  refine (Loads.three fun i hi => ?_).eq fun st => by
    rw [fromTorchParam, h2, M.bind_ok, h1, M.bind_ok, if_neg (by decide), if_neg (by decide), if_pos ⟨rfl, rfl⟩]
  obtain ⟨m, x, em, ex, hs, hx⟩ := hm i hi
  obtain ⟨b, eb, hb⟩ := ha.slice1 (lo := i * E) (k := E) (by nlinarith)
  obtain ⟨c, ec, hc⟩ := hb.reshape (S' := [H, D]) (by simp [Pos, hE0]) (by simp [hE]; ring)
  refine (Loads.one hp em ex (a := c.T) ?_).eq fun st => ?_
  · rw [hs]
    refine (show c.T.Is [D, H] _ from hc.T).congr fun I hI => ?_
    obtain ⟨d, h, rfl⟩ := List.length_eq_two.1 hI.length
    simp only [InBox_cons, InBox_nil, and_true] at hI
    have hlt : d + D * h < E := by
      rw [hE]
      calc d + D * h < D + D * h := by omega
        _ = D * (h + 1) := by ring
        _ ≤ D * H := Nat.mul_le_mul_left _ hI.2
    simp only [List.reverse_cons, List.reverse_nil, List.nil_append, List.cons_append, lin, unlin, Nat.mul_zero, Nat.add_zero, List.getD_cons_zero]
    rw [Nat.mod_eq_of_lt hlt, hx d h hI.1 hI.2, Nat.mul_comm h D, Nat.add_comm d]
  · rw [show (i + 1) * E = i * E + E by ring, eb, M.bind_ok, hEH, ec, M.bind_ok]

theorem Loads.projW {name : List String} (h3 : nameBack name 3 = .ok "attn") (h2 : nameBack name 2 = .ok "c_proj") (h1 : nameBack name 1 = .ok "weight") (hE : E = D * H) (hE0 : 0 < E)
    {x y : List Nat → α} {p : NdArray α} (ha : p.Is [E, E] y) {m : Moments} (em : params[k]? = some m) (ex : xs[k]? = some x) (hs : m.value.shape = [E, H, D])
    (hx : ∀ e h d, e < E → h < H → d < D → x [e, h, d] = y [h * D + d, e]) :
    Loads params xs tmpId (fromTorchParam E H (params.map PyEntry.moments) tmpId name p) k (k + 1) := by
  have hH : 0 < H := Nat.pos_of_ne_zero (by rintro rfl; simp at hE; omega)
  have hEH : E / H = D := by rw [hE, Nat.mul_div_cancel _ hH]
  obtain ⟨c, ec, hc⟩ := ha.T.reshape (S' := [E, H, D]) (by simp [Pos, hE0])
    (by simp only [List.prod_cons, List.prod_nil, List.reverse_cons, List.reverse_nil, List.nil_append, List.cons_append]; rw [hE]; ring)
  refine (Loads.one hp em ex (a := c) ?_).eq fun st => ?_
  · rw [hs]
    refine hc.congr fun I hI => ?_
    obtain ⟨e, h, d, rfl⟩ := List.length_eq_three.1 hI.length
    simp only [InBox_cons, InBox_nil, and_true] at hI
    have hlt : d + D * h < E := by
      rw [hE]
      calc d + D * h < D + D * h := by omega
        _ = D * (h + 1) := by ring
        _ ≤ D * H := Nat.mul_le_mul_left _ hI.2.1
    have e1 : d + D * (h + H * e) = d + D * h + E * e := by rw [hE]; ring
    simp only [List.reverse_cons, List.reverse_nil, List.nil_append, List.cons_append, lin, unlin, Nat.mul_zero, Nat.add_zero]
    rw [e1, Nat.add_mul_mod_self_left, Nat.mod_eq_of_lt hlt, Nat.add_mul_div_left _ _ hE0, Nat.div_eq_of_lt hlt, Nat.zero_add, Nat.mod_eq_of_lt hI.1,
      hx e h d hI.1 hI.2.1 hI.2.2, Nat.mul_comm h D, Nat.add_comm d]
  · rw [fromTorchParam, h2, M.bind_ok, h1, M.bind_ok, if_neg (by decide), if_neg (by decide), if_neg (by decide), if_pos rfl, h3, M.bind_ok, if_pos rfl, if_pos rfl, hEH, ec, M.bind_ok]

theorem Loads.projB {name : List String} (h3 : nameBack name 3 = .ok "attn") (h2 : nameBack name 2 = .ok "c_proj") (h1 : nameBack name 1 = .ok "bias")
    {x : List Nat → α} {p : NdArray α} {m : Moments} (em : params[k]? = some m) (ex : xs[k]? = some x) (ha : p.Is m.value.shape x) :
    Loads params xs tmpId (fromTorchParam E H (params.map PyEntry.moments) tmpId name p) k (k + 1) := by
  refine (Loads.one hp em ex ha).eq fun st => ?_
  rw [fromTorchParam, h2, M.bind_ok, h1, M.bind_ok, if_neg (by decide), if_neg (by decide), if_neg (by decide), if_pos rfl, h3, M.bind_ok, if_pos rfl, if_neg (by decide), if_pos rfl]

end

/-! ### Arrays with given elements -/

/-- An array with the given elements. -/
def ndOf {α : Type} (S : List Nat) (x : List Nat → α) : NdArray α := ⟨S, fun I => some (x I)⟩

theorem ndOf_is {α : Type} (S : List Nat) (x : List Nat → α) : (ndOf S x).Is S x := ⟨rfl, fun _ _ => rfl⟩

/-- The arrays of a PyTorch block. -/
def TorchBlock.arrays {α : Type} (E inner : Nat) (t : TorchBlock (List Nat → α)) : TorchBlock (NdArray α) :=
  ⟨ndOf [E] t.ln1w, ndOf [E] t.ln1b, ndOf [E, 3 * E] t.attnw, ndOf [3 * E] t.attnb, ndOf [E, E] t.projw, ndOf [E] t.projb, ndOf [E] t.ln2w, ndOf [E] t.ln2b, ndOf [E, inner] t.fcw,
    ndOf [inner] t.fcb, ndOf [inner, E] t.outw, ndOf [E] t.outb⟩

/-- The arrays of a PyTorch model. -/
def TorchGpt.arrays {α : Type} (vocab maxPos E inner : Nat) (t : TorchGpt (List Nat → α)) : TorchGpt (NdArray α) :=
  ⟨ndOf [vocab, E] t.wte, ndOf [maxPos, E] t.wpe, t.blocks.map (TorchBlock.arrays E inner), ndOf [E] t.lnfw, ndOf [E] t.lnfb, ndOf [vocab, E] t.lm⟩

/-- Every PyTorch model has arrays. -/
theorem TorchGpt.arrays_is {α : Type} (vocab maxPos E inner : Nat) (t : TorchGpt (List Nat → α)) : (t.arrays vocab maxPos E inner).Is vocab maxPos E inner t where
  wte := ndOf_is _ _
  wpe := ndOf_is _ _
  blocks := by
    simp only [TorchGpt.arrays, List.forall₂_map_left_iff, List.forall₂_same]
    intro b _
    exact ⟨ndOf_is _ _, ndOf_is _ _, ndOf_is _ _, ndOf_is _ _, ndOf_is _ _, ndOf_is _ _, ndOf_is _ _, ndOf_is _ _, ndOf_is _ _, ndOf_is _ _, ndOf_is _ _, ndOf_is _ _⟩
  lnfw := ndOf_is _ _
  lnfb := ndOf_is _ _
  lm := ndOf_is _ _

end NNTile
