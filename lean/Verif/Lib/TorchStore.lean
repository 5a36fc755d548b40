import Verif.Lib.TorchLoad
import Verif.Lib.OptimState
/-!
# `GPT2Model.to_torch` stores all parameters
-/
namespace NNTile
variable {α : Type} [FP α]

/-- A step of `to_torch` which reads the parameters from `k` up to `n`. -/
def Stores (params : List Moments) (xs : List (List Nat → α)) (tmpId : Nat) {β : Type} (f : Nat × Store α → M (β × Nat × Store α)) (k n : Nat) (Q : β → Prop) : Prop :=
  ∀ s, (∀ m ∈ params, m.value.Ready s) → HoldUpTo params xs params.length s → ∃ a s', f (k, s) = .ok (a, n, s') ∧ Q a ∧ OnlyChanged [tmpId] s s'

theorem HoldUpTo.keep {params : List Moments} {xs : List (List Nat → α)} {k tmpId : Nat} (hp : ParamsOk params tmpId) {s s' : Store α} (h : HoldUpTo params xs k s)
    (o : OnlyChanged [tmpId] s s') : HoldUpTo params xs k s' := by
  intro i m x hi hm hx
  refine o.holds (h i m x hi hm hx) ?_
  simpa using Ne.symm (hp.tmp m (List.mem_of_getElem? hm))

theorem ready_keep {params : List Moments} {tmpId : Nat} (hp : ParamsOk params tmpId) {s s' : Store α} (h : ∀ m ∈ params, m.value.Ready s) (o : OnlyChanged [tmpId] s s') :
    ∀ m ∈ params, m.value.Ready s' := fun m hm => o.ready (h m hm) (by simpa using Ne.symm (hp.tmp m hm))

theorem NpArray.Saves.toNd {a : NpArray α} {S : List Nat} {x : List Nat → α} (h : a.Saves S x) : a.toNd.Is S x := by
  refine ⟨h.shape, fun I hI => ?_⟩
  exact h.holds I (by rw [h.shape]; exact hI)

section
variable {params : List Moments} {xs : List (List Nat → α)} {tmpId : Nat} (hp : ParamsOk params tmpId) {k : Nat} {E H D inner : Nat}
include hp

theorem Stores.bind {β γ : Type} {f : Nat × Store α → M (β × Nat × Store α)} {g : β → Nat × Store α → M (γ × Nat × Store α)} {k n n' : Nat} {P : β → Prop} {Q : γ → Prop}
    (h : Stores params xs tmpId f k n P) (h' : ∀ b, P b → Stores params xs tmpId (g b) n n' Q) : Stores params xs tmpId (fun st => f st >>= fun r => g r.1 r.2) k n' Q := by
  intro s hr hh
  obtain ⟨a, s1, e1, v1, o1⟩ := h s hr hh
  obtain ⟨b, s2, e2, v2, o2⟩ := h' a v1 s1 (ready_keep hp hr o1) (hh.keep hp o1)
  refine ⟨b, s2, ?_, v2, (o1.trans o2).mono fun i hi => (List.mem_append.1 hi).elim id id⟩
  show (f (k, s) >>= _) = _
  rw [e1]
  exact e2

omit hp in
theorem Stores.pure {β γ : Type} {f : Nat × Store α → M (β × Nat × Store α)} {k n : Nat} {P : β → Prop} {Q : γ → Prop} (g : β → M γ) (h : Stores params xs tmpId f k n P)
    (h' : ∀ b, P b → ∃ c, g b = .ok c ∧ Q c) : Stores params xs tmpId (fun st => f st >>= fun r => g r.1 >>= fun c => .ok (c, r.2)) k n Q := by
  intro s hr hh
  obtain ⟨a, s1, e1, v1, o1⟩ := h s hr hh
  obtain ⟨c, e2, v2⟩ := h' a v1
  refine ⟨c, s1, ?_, v2, o1⟩
  show (f (k, s) >>= _) = _
  rw [e1, M.bind_ok, e2, M.bind_ok]

omit hp in
theorem Stores.eq {β : Type} {f g : Nat × Store α → M (β × Nat × Store α)} {k n : Nat} {Q : β → Prop} (h : Stores params xs tmpId f k n Q) (e : ∀ st, g st = f st) :
    Stores params xs tmpId g k n Q := by
  rw [show g = f from funext e]
  exact h

theorem Stores.one {m : Moments} {x : List Nat → α} (hm : params[k]? = some m) (hx : xs[k]? = some x) {S : Option (List Nat)} (hS : S.getD m.value.shape = m.value.shape) :
    Stores params xs tmpId (storeParam (params.map PyEntry.moments) tmpId S) k (k + 1) (fun a => a.Is m.value.shape x) := by
  intro s hr hh
  have hmem : m ∈ params := List.mem_of_getElem? hm
  have hk : k < params.length := (List.getElem?_eq_some_iff.1 hm).1
  obtain ⟨a, s', e, v, o⟩ := saveArray_spec (hr m hmem) (hh k m x hk hm hx) (hp.tmp m hmem) (hp.shape m hmem)
  refine ⟨a.toNd, s', ?_, v.toNd, o⟩
  rw [saveArray] at e
  rw [storeParam, pyItem_moments hm, M.bind_ok, PyEntry.value, M.bind_ok, hS, e, M.bind_ok]

/-- A transposed parameter. -/
theorem Stores.plain {name : List String} {layer last : String} (h2 : nameBack name 2 = .ok layer) (h1 : nameBack name 1 = .ok last) (n1 : layer ≠ "lm_head") (n2 : layer ≠ "c_attn")
    (n3 : layer = "c_proj" → ∃ up, nameBack name 3 = .ok up ∧ up ≠ "attn") {m : Moments} {x y : List Nat → α} {S : List Nat} (p : NdArray α) (hm : params[k]? = some m)
    (hx : xs[k]? = some x) (hS : m.value.shape = S.reverse) (hxy : ∀ I, InBox S I → x I.reverse = y I) :
    Stores params xs tmpId (toTorchParam E (params.map PyEntry.moments) tmpId name p) k (k + 1) (fun a => a.Is S y) := by
  refine (Stores.pure (fun a => .ok a.T) (Stores.one hp hm hx (S := none) rfl) (Q := fun a => a.Is S y) fun a ha => ⟨a.T, rfl, ?_⟩).eq fun st => ?_
  · rw [hS] at ha
    have := ha.T
    rw [List.reverse_reverse] at this
    exact this.congr hxy
  · rw [toTorchParam, h2, M.bind_ok, h1, M.bind_ok, if_neg n1, if_neg (fun h => n2 h.1), if_neg (fun h => n2 h.1)]
    by_cases h : layer = "c_proj"
    · obtain ⟨up, e, hu⟩ := n3 h
      rw [if_pos h, e, M.bind_ok, if_neg hu]
      rfl
    · rw [if_neg h]
      rfl

theorem Stores.lmHead {name : List String} {last : String} (h2 : nameBack name 2 = .ok "lm_head") (h1 : nameBack name 1 = .ok last) {m : Moments} {x : List Nat → α} {p : NdArray α}
    (hm : params[k]? = some m) (hx : xs[k]? = some x) (ha : p.shape = m.value.shape) :
    Stores params xs tmpId (toTorchParam E (params.map PyEntry.moments) tmpId name p) k (k + 1) (fun a => a.Is m.value.shape x) := by
  refine (Stores.one hp hm hx (S := some p.shape) ha).eq fun st => ?_
  rw [toTorchParam, h2, M.bind_ok, h1, M.bind_ok, if_pos rfl]

theorem Stores.vec {name : List String} {layer last : String} (h2 : nameBack name 2 = .ok layer) (h1 : nameBack name 1 = .ok last) (n1 : layer ≠ "lm_head") (n2 : layer ≠ "c_attn")
    (n3 : layer = "c_proj" → ∃ up, nameBack name 3 = .ok up ∧ up ≠ "attn") {n : Nat} {m : Moments} {x : List Nat → α} (p : NdArray α) (hm : params[k]? = some m)
    (hx : xs[k]? = some x) (hS : m.value.shape = [n]) : Stores params xs tmpId (toTorchParam E (params.map PyEntry.moments) tmpId name p) k (k + 1) (fun a => a.Is [n] x) := by
  refine Stores.plain hp h2 h1 n1 n2 n3 p hm hx hS fun I hI => ?_
  obtain ⟨i, rfl⟩ := List.length_eq_one_iff.1 hI.length
  rfl

theorem Stores.mat {name : List String} {layer last : String} (h2 : nameBack name 2 = .ok layer) (h1 : nameBack name 1 = .ok last) (n1 : layer ≠ "lm_head") (n2 : layer ≠ "c_attn")
    (n3 : layer = "c_proj" → ∃ up, nameBack name 3 = .ok up ∧ up ≠ "attn") {n n' : Nat} {m : Moments} {x : List Nat → α} (p : NdArray α) (hm : params[k]? = some m)
    (hx : xs[k]? = some x) (hS : m.value.shape = [n', n]) :
    Stores params xs tmpId (toTorchParam E (params.map PyEntry.moments) tmpId name p) k (k + 1) (fun a => a.Is [n, n'] (fun I => x [I.getD 1 0, I.getD 0 0])) := by
  refine Stores.plain hp h2 h1 n1 n2 n3 p hm hx hS fun I hI => ?_
  obtain ⟨i, j, rfl⟩ := List.length_eq_two.1 hI.length
  rfl

omit hp in
theorem forN3_eq {σ : Type} (f : Nat → σ → M σ) (x : σ) : forN 3 f x = (f 0 x >>= fun r => f 1 r >>= fun r => f 2 r) := by
  rw [forN_succ, forN_succ, forN_succ, forN_zero, M.bind_ok, bind_assoc]

theorem Stores.three {β : Type} {F : Nat → β × Nat × Store α → M (β × Nat × Store α)} {a : β} {P : Nat → β → Prop} {k : Nat} (h0 : P 0 a)
    (h : ∀ i, i < 3 → ∀ b, P i b → Stores params xs tmpId (fun st => F i (b, st)) (k + i) (k + i + 1) (P (i + 1))) :
    Stores params xs tmpId (fun st => forN 3 F (a, st)) k (k + 3) (P 3) := by
  refine (Stores.bind hp (h 0 (by omega) a h0) fun a0 h0 => Stores.bind hp (h 1 (by omega) a0 h0) fun a1 h1 => h 2 (by omega) a1 h1).eq fun st => ?_
  rw [forN3_eq]

omit hp in
/-- Division of positions of the joint weights of queries, keys and values. -/
theorem joint_div {E i v : Nat} (h1 : i * E ≤ v) (h2 : v < i * E + E) : v / E = i ∧ v % E = v - i * E := by
  have h : v = (v - i * E) + E * i := by rw [Nat.mul_comm E i]; omega
  have hE : 0 < E := by omega
  constructor
  · rw [h, Nat.add_mul_div_left _ _ hE, Nat.div_eq_of_lt (by omega), Nat.zero_add]
  · conv_lhs => rw [h]
    rw [Nat.add_mul_mod_self_left, Nat.mod_eq_of_lt (by omega)]

omit hp [FP α] in
theorem Stores.imp {β : Type} {f : Nat × Store α → M (β × Nat × Store α)} {k n : Nat} {P Q : β → Prop} (h : Stores params xs tmpId f k n P) (hPQ : ∀ b, P b → Q b) :
    Stores params xs tmpId f k n Q := by
  intro s hr hh
  obtain ⟨a, s1, e1, v1, o1⟩ := h s hr hh
  exact ⟨a, s1, e1, hPQ a v1, o1⟩

omit hp [FP α] in
theorem joint_if {E v : Nat} {x : Nat → List Nat → α} (hv : v < 3 * E) : x (v / E) = if v < E then x 0 else if v < 2 * E then x 1 else x 2 := by
  by_cases c0 : v < E
  · rw [if_pos c0, (joint_div (i := 0) (by omega) (by omega)).1]
  · by_cases c1 : v < 2 * E
    · rw [if_neg c0, if_pos c1, (joint_div (i := 1) (by omega) (by omega)).1]
    · rw [if_neg c0, if_neg c1, (joint_div (i := 2) (by omega) (by omega)).1]

theorem Stores.attnW {name : List String} (h2 : nameBack name 2 = .ok "c_attn") (h1 : nameBack name 1 = .ok "weight") (hE : E = D * H) (hE0 : 0 < E) {p : NdArray α}
    {w : List Nat → α} (ha : p.Is [E, 3 * E] w) (m : Nat → Moments) (x : Nat → List Nat → α) (hm : ∀ i, i < 3 → params[k + i]? = some (m i) ∧ xs[k + i]? = some (x i) ∧
      (m i).value.shape = [H, D, E]) :
    Stores params xs tmpId (toTorchParam E (params.map PyEntry.moments) tmpId name p) k (k + 3) (fun a => a.Is [E, 3 * E] (fun I =>
      (if I.getD 1 0 < E then x 0 else if I.getD 1 0 < 2 * E then x 1 else x 2) [I.getD 1 0 % E / D, I.getD 1 0 % E % D, I.getD 0 0])) := by
  have hH : 0 < H := Nat.pos_of_ne_zero (by rintro rfl; simp at hE; omega)
  have hD : 0 < D := Nat.pos_of_ne_zero (by rintro rfl; simp at hE; omega)
  refine ((Stores.three hp (a := p) (P := fun i a => a.Is [E, 3 * E] fun I => if I.getD 1 0 < i * E then x (I.getD 1 0 / E) [I.getD 1 0 % E / D, I.getD 1 0 % E % D, I.getD 0 0] else w I)
    (F := fun i r => do
      let q ← storeParam (params.map PyEntry.moments) tmpId none r.2
      let w ← p.slice 1 (i * E) ((i + 1) * E)
      let a ← q.1.reshape w.T.shape
      let p' ← r.1.setSlice 1 (i * E) ((i + 1) * E) a.T
      .ok (p', q.2)) (k := k) ?_ ?_).imp fun a h => h.congr fun I hI => ?_).eq fun st => by
    rw [toTorchParam, h2, M.bind_ok, h1, M.bind_ok, if_neg (by decide), if_pos ⟨rfl, rfl⟩]
  · exact ha.congr fun I _ => by rw [Nat.zero_mul, if_neg (Nat.not_lt_zero _)]
  · intro i hi a hy
    obtain ⟨em, ex, hs⟩ := hm i hi
    obtain ⟨b, eb, hb⟩ := ha.slice2 (lo := i * E) (k := E) (by nlinarith)
    refine (Stores.pure (fun q => do
      let w ← p.slice 1 (i * E) ((i + 1) * E)
      let c ← q.reshape w.T.shape
      a.setSlice 1 (i * E) ((i + 1) * E) c.T) (Stores.one hp em ex (S := none) rfl) fun q hq => ?_).eq fun st => ?_
    · rw [hs] at hq
      obtain ⟨c, ec, hc⟩ := hq.reshape (S' := [E, E]) (by simp [Pos, hE0, hH, hD]) (by
        simp only [List.prod_cons, List.prod_nil]; rw [hE]; ring)
      obtain ⟨d, ed, hd⟩ := hy.setSlice2 (lo := i * E) (k := E) hc.T (by nlinarith)
      refine ⟨d, ?_, hd.congr fun I hI => ?_⟩
      · rw [show (i + 1) * E = i * E + E by ring, eb, M.bind_ok, NdArray.T, hb.1]
        change (q.reshape [E, E] >>= _) = _
        rw [ec, M.bind_ok, ed]
      · obtain ⟨u, v, rfl⟩ := List.length_eq_two.1 hI.length
        simp only [InBox_cons, InBox_nil, and_true] at hI
        simp only [List.getD_cons_zero, List.getD_cons_succ]
        rw [show (i + 1) * E = i * E + E by ring]
        by_cases hc : i * E ≤ v ∧ v < i * E + E
        · obtain ⟨j1, j2⟩ := joint_div hc.1 hc.2
          rw [if_pos hc, if_pos hc.2, j1, j2]
          simp only [List.reverse_cons, List.reverse_nil, List.nil_append, List.cons_append, lin, unlin, Nat.mul_zero, Nat.add_zero]
          have hv : v - i * E < D * H := by rw [← hE]; omega
          rw [Nat.add_mul_mod_self_left, Nat.mod_eq_of_lt hI.1, Nat.add_mul_div_left _ _ hE0, Nat.div_eq_of_lt hI.1, Nat.zero_add, Nat.mod_eq_of_lt (Nat.div_lt_of_lt_mul hv)]
        · rw [if_neg hc]
          by_cases hv : v < i * E
          · rw [if_pos hv, if_pos (by omega)]
          · rw [if_neg hv, if_neg (by omega)]
    · simp only [bind_assoc]
  · obtain ⟨u, v, rfl⟩ := List.length_eq_two.1 hI.length
    simp only [InBox_cons, InBox_nil, and_true] at hI
    simp only [List.getD_cons_zero, List.getD_cons_succ]
    rw [if_pos hI.2, joint_if (x := x) hI.2]

theorem Stores.attnB {name : List String} (h2 : nameBack name 2 = .ok "c_attn") (h1 : nameBack name 1 = .ok "bias") (hE : E = D * H) (hE0 : 0 < E) {p : NdArray α}
    {w : List Nat → α} (ha : p.Is [3 * E] w) (m : Nat → Moments) (x : Nat → List Nat → α) (hm : ∀ i, i < 3 → params[k + i]? = some (m i) ∧ xs[k + i]? = some (x i) ∧
      (m i).value.shape = [D, H]) :
    Stores params xs tmpId (toTorchParam E (params.map PyEntry.moments) tmpId name p) k (k + 3) (fun a => a.Is [3 * E] (fun I =>
      (if I.getD 0 0 < E then x 0 else if I.getD 0 0 < 2 * E then x 1 else x 2) [I.getD 0 0 % E % D, I.getD 0 0 % E / D])) := by
  have hH : 0 < H := Nat.pos_of_ne_zero (by rintro rfl; simp at hE; omega)
  have hD : 0 < D := Nat.pos_of_ne_zero (by rintro rfl; simp at hE; omega)
  refine ((Stores.three hp (a := p) (P := fun i a => a.Is [3 * E] fun I => if I.getD 0 0 < i * E then x (I.getD 0 0 / E) [I.getD 0 0 % E % D, I.getD 0 0 % E / D] else w I)
    (F := fun i r => do
      let q ← storeParam (params.map PyEntry.moments) tmpId none r.2
      let a ← q.1.T.reshape [q.1.T.shape.prod]
      let p' ← r.1.setSlice 0 (i * E) ((i + 1) * E) a
      .ok (p', q.2)) (k := k) ?_ ?_).imp fun a h => h.congr fun I hI => ?_).eq fun st => by
    rw [toTorchParam, h2, M.bind_ok, h1, M.bind_ok, if_neg (by decide), if_neg (by decide), if_pos ⟨rfl, rfl⟩]
  · exact ha.congr fun I _ => by rw [Nat.zero_mul, if_neg (Nat.not_lt_zero _)]
  · intro i hi a hy
    obtain ⟨em, ex, hs⟩ := hm i hi
    refine (Stores.pure (fun q => do
      let c ← q.T.reshape [q.T.shape.prod]
      a.setSlice 0 (i * E) ((i + 1) * E) c) (Stores.one hp em ex (S := none) rfl) fun q hq => ?_).eq fun st => ?_
    · rw [hs] at hq
      have hpr : q.T.shape.prod = E := by rw [hq.T.1, hE]; simp; ring
      obtain ⟨c, ec, hc⟩ := hq.T.reshape (S' := [E]) (by simp [Pos, hH, hD]) (by
        rw [← hq.T.1, hpr]; simp)
      obtain ⟨d, ed, hd⟩ := hy.setSlice1 (lo := i * E) (k := E) hc (by nlinarith)
      refine ⟨d, ?_, hd.congr fun I hI => ?_⟩
      · rw [show (i + 1) * E = i * E + E by ring, hpr, ec, M.bind_ok, ed]
      · obtain ⟨v, rfl⟩ := List.length_eq_one_iff.1 hI.length
        simp only [InBox_cons, InBox_nil, and_true] at hI
        simp only [List.getD_cons_zero]
        rw [show (i + 1) * E = i * E + E by ring]
        by_cases hc : i * E ≤ v ∧ v < i * E + E
        · obtain ⟨j1, j2⟩ := joint_div hc.1 hc.2
          rw [if_pos hc, if_pos hc.2, j1, j2]
          simp only [List.reverse_cons, List.reverse_nil, List.nil_append, List.cons_append, lin, unlin, Nat.mul_zero, Nat.add_zero]
          have hv : v - i * E < D * H := by rw [← hE]; omega
          rw [Nat.mod_eq_of_lt (Nat.div_lt_of_lt_mul hv)]
        · rw [if_neg hc]
          by_cases hv : v < i * E
          · rw [if_pos hv, if_pos (by omega)]
          · rw [if_neg hv, if_neg (by omega)]
    · simp only [bind_assoc]
  · obtain ⟨v, rfl⟩ := List.length_eq_one_iff.1 hI.length
    simp only [InBox_cons, InBox_nil, and_true] at hI
    simp only [List.getD_cons_zero]
    rw [if_pos hI, joint_if (x := x) hI]

theorem Stores.projW {name : List String} (h3 : nameBack name 3 = .ok "attn") (h2 : nameBack name 2 = .ok "c_proj") (h1 : nameBack name 1 = .ok "weight") (hE : E = D * H) (hE0 : 0 < E)
    {x : List Nat → α} {p : NdArray α} (ha : p.shape = [E, E]) {m : Moments} (em : params[k]? = some m) (ex : xs[k]? = some x) (hs : m.value.shape = [E, H, D]) :
    Stores params xs tmpId (toTorchParam E (params.map PyEntry.moments) tmpId name p) k (k + 1) (fun a => a.Is [E, E] fun I => x [I.getD 1 0, I.getD 0 0 / D, I.getD 0 0 % D]) := by
  have hH : 0 < H := Nat.pos_of_ne_zero (by rintro rfl; simp at hE; omega)
  have hD : 0 < D := Nat.pos_of_ne_zero (by rintro rfl; simp at hE; omega)
  refine (Stores.pure (fun q => do
    let a ← q.reshape p.T.shape
    .ok a.T) (Stores.one hp em ex (S := none) rfl) (Q := fun a => a.Is [E, E] fun I => x [I.getD 1 0, I.getD 0 0 / D, I.getD 0 0 % D]) fun q hq => ?_).eq fun st => ?_
  · rw [hs] at hq
    obtain ⟨c, ec, hc⟩ := hq.reshape (S' := [E, E]) (by simp [Pos, hE0, hH, hD]) (by
      simp only [List.prod_cons, List.prod_nil]; rw [hE]; ring)
    refine ⟨c.T, ?_, (show c.T.Is [E, E] _ from hc.T).congr fun I hI => ?_⟩
    · rw [show p.T.shape = [E, E] by rw [NdArray.T, ha]; rfl, ec, M.bind_ok]
    · obtain ⟨u, v, rfl⟩ := List.length_eq_two.1 hI.length
      simp only [InBox_cons, InBox_nil, and_true] at hI
      simp only [List.reverse_cons, List.reverse_nil, List.nil_append, List.cons_append, lin, unlin, Nat.mul_zero, Nat.add_zero, List.getD_cons_zero, List.getD_cons_succ]
      have e1 : u + E * v = u + D * (H * v) := by rw [hE]; ring
      have hu : u / D < H := Nat.div_lt_of_lt_mul (by rw [← hE]; exact hI.1)
      rw [e1, Nat.add_mul_mod_self_left, Nat.add_mul_div_left _ _ hD, Nat.add_mul_mod_self_left, Nat.mod_eq_of_lt hu, Nat.add_mul_div_left _ _ hH, Nat.div_eq_of_lt hu, Nat.zero_add,
        Nat.mod_eq_of_lt hI.2]
  · rw [toTorchParam, h2, M.bind_ok, h1, M.bind_ok, if_neg (by decide), if_neg (by decide), if_neg (by decide), if_pos rfl, h3, M.bind_ok, if_pos rfl]
    simp only [bind_assoc, M.bind_ok, if_pos]

theorem Stores.projB {name : List String} (h3 : nameBack name 3 = .ok "attn") (h2 : nameBack name 2 = .ok "c_proj") (h1 : nameBack name 1 = .ok "bias")
    {x : List Nat → α} (p : NdArray α) {m : Moments} (em : params[k]? = some m) (ex : xs[k]? = some x) :
    Stores params xs tmpId (toTorchParam E (params.map PyEntry.moments) tmpId name p) k (k + 1) (fun a => a.Is m.value.shape x) := by
  refine (Stores.pure (fun q => .ok q) (Stores.one hp em ex (S := none) rfl) (Q := fun a => a.Is m.value.shape x) fun q hq => ⟨q, rfl, hq⟩).eq fun st => ?_
  rw [toTorchParam, h2, M.bind_ok, h1, M.bind_ok, if_neg (by decide), if_neg (by decide), if_neg (by decide), if_pos rfl, h3, M.bind_ok, if_pos rfl]
  rfl

end

theorem gpt2ToTorch_append (E : Nat) (params : List PyEntry) (tmpId : Nat) (l l' : List (List String × NdArray α)) (st : Nat × Store α) :
    gpt2ToTorch E params tmpId (l ++ l') st = (gpt2ToTorch E params tmpId l st >>= fun r => gpt2ToTorch E params tmpId l' r.2 >>= fun r' => .ok (r.1 ++ r'.1, r'.2)) := by
  induction l generalizing st with
  | nil =>
    rw [List.nil_append, gpt2ToTorch, M.bind_ok]
    cases gpt2ToTorch E params tmpId l' st <;> rfl
  | cons q l ih =>
    rw [List.cons_append, gpt2ToTorch, gpt2ToTorch, bind_assoc]
    congr 1
    funext r
    rw [ih, bind_assoc, bind_assoc]
    congr 1
    funext r'
    rw [bind_assoc]
    simp only [M.bind_ok, List.cons_append]

theorem Stores.nil {params : List Moments} {xs : List (List Nat → α)} {tmpId E k : Nat} :
    Stores params xs tmpId (gpt2ToTorch E (params.map PyEntry.moments) tmpId []) k k (fun l => l = []) :=
  fun s _ _ => ⟨[], s, rfl, rfl, fun _ _ => rfl⟩

section
variable {params : List Moments} {xs : List (List Nat → α)} {tmpId : Nat} (hp : ParamsOk params tmpId) {k : Nat} {E H D inner : Nat}
include hp

theorem Stores.cons {n n' : Nat} {name : List String} {p : NdArray α} {qs : List (List String × NdArray α)} {P : NdArray α → Prop} {Q : List (List String × NdArray α) → Prop}
    (h : Stores params xs tmpId (toTorchParam E (params.map PyEntry.moments) tmpId name p) k n P)
    (h' : Stores params xs tmpId (gpt2ToTorch E (params.map PyEntry.moments) tmpId qs) n n' Q) :
    Stores params xs tmpId (gpt2ToTorch E (params.map PyEntry.moments) tmpId ((name, p) :: qs)) k n' (fun l => ∃ a l', l = (name, a) :: l' ∧ P a ∧ Q l') := by
  refine (Stores.bind hp h (g := fun a st => gpt2ToTorch E (params.map PyEntry.moments) tmpId qs st >>= fun r => .ok ((name, a) :: r.1, r.2)) fun a ha => ?_).eq fun st => rfl
  exact (Stores.pure (fun l => .ok ((name, a) :: l)) h' (Q := fun l => ∃ a l', l = (name, a) :: l' ∧ P a ∧ Q l') fun l hl => ⟨_, rfl, a, l, rfl, ha, hl⟩).eq fun st => rfl

theorem Stores.append {n n' : Nat} {ps qs : List (List String × NdArray α)} {P Q : List (List String × NdArray α) → Prop}
    (h : Stores params xs tmpId (gpt2ToTorch E (params.map PyEntry.moments) tmpId ps) k n P)
    (h' : Stores params xs tmpId (gpt2ToTorch E (params.map PyEntry.moments) tmpId qs) n n' Q) :
    Stores params xs tmpId (gpt2ToTorch E (params.map PyEntry.moments) tmpId (ps ++ qs)) k n' (fun l => ∃ l1 l2, l = l1 ++ l2 ∧ P l1 ∧ Q l2) := by
  refine (Stores.bind hp h (g := fun a st => gpt2ToTorch E (params.map PyEntry.moments) tmpId qs st >>= fun r => .ok (a ++ r.1, r.2)) fun a ha => ?_).eq fun st =>
    gpt2ToTorch_append _ _ _ _ _ _
  exact (Stores.pure (fun l => .ok (a ++ l)) h' (Q := fun l => ∃ l1 l2, l = l1 ++ l2 ∧ P l1 ∧ Q l2) fun l hl => ⟨_, rfl, a, l, rfl, ha, hl⟩).eq fun st => rfl

theorem Stores.block (hE : E = D * H) (hE0 : 0 < E) {q : GptBlockP Moments} (hq : q.Shapes E H D inner) {a : TorchBlock (NdArray α)} {t : TorchBlock (List Nat → α)} (ha : a.Is E inner t)
    {x : GptBlockP (List Nat → α)} (hP : ∀ j, j < 16 → params[k + j]? = q.toList[j]?) (hX : ∀ j, j < 16 → xs[k + j]? = x.toList[j]?) (i : Nat) :
    Stores params xs tmpId (gpt2ToTorch E (params.map PyEntry.moments) tmpId (a.named i)) k (k + 16) (fun l => ∃ b : TorchBlock (NdArray α), l = b.named i ∧ b.Is E inner (x.toTorch E D)) := by
  simp only [GptBlockP.Shapes, GptBlockP.toList, List.map_cons, List.map_nil, List.cons.injEq, and_true] at hq
  obtain ⟨s0, s1, s2, s3, s4, s5, s6, s7, s8, s9, s10, s11, s12, s13, s14, s15⟩ := hq
  have key := Stores.cons hp (n := k + 1) (Stores.vec hp (E := E) (name := ["transformer", "h", toString i, "ln_1", "weight"]) (layer := "ln_1") rfl rfl (by decide) (by decide)
      (fun h => absurd h (by decide)) a.ln1w (hP 0 (by omega)) (hX 0 (by omega)) s0) <|
    Stores.cons hp (n := k + 2) (Stores.vec hp (name := ["transformer", "h", toString i, "ln_1", "bias"]) (layer := "ln_1") rfl rfl (by decide) (by decide)
      (fun h => absurd h (by decide)) a.ln1b (hP 1 (by omega)) (hX 1 (by omega)) s1) <|
    Stores.cons hp (n := k + 5) (Stores.attnW hp (k := k + 2) (name := ["transformer", "h", toString i, "attn", "c_attn", "weight"]) rfl rfl hE hE0 ha.attnw
      (fun c => if c = 0 then q.wq else if c = 1 then q.wk else q.wv) (fun c => if c = 0 then x.wq else if c = 1 then x.wk else x.wv) (fun c hc => by
        obtain rfl | rfl | rfl : c = 0 ∨ c = 1 ∨ c = 2 := by omega
        · exact ⟨hP 2 (by omega), hX 2 (by omega), s2⟩
        · exact ⟨hP 3 (by omega), hX 3 (by omega), s3⟩
        · exact ⟨hP 4 (by omega), hX 4 (by omega), s4⟩)) <|
    Stores.cons hp (n := k + 8) (Stores.attnB hp (k := k + 5) (name := ["transformer", "h", toString i, "attn", "c_attn", "bias"]) rfl rfl hE hE0 ha.attnb
      (fun c => if c = 0 then q.bq else if c = 1 then q.bk else q.bv) (fun c => if c = 0 then x.bq else if c = 1 then x.bk else x.bv) (fun c hc => by
        obtain rfl | rfl | rfl : c = 0 ∨ c = 1 ∨ c = 2 := by omega
        · exact ⟨hP 5 (by omega), hX 5 (by omega), s5⟩
        · exact ⟨hP 6 (by omega), hX 6 (by omega), s6⟩
        · exact ⟨hP 7 (by omega), hX 7 (by omega), s7⟩)) <|
    Stores.cons hp (n := k + 9) (Stores.projW hp (k := k + 8) (name := ["transformer", "h", toString i, "attn", "c_proj", "weight"]) rfl rfl rfl hE hE0 ha.projw.1
      (hP 8 (by omega)) (hX 8 (by omega)) s8) <|
    Stores.cons hp (n := k + 10) (Stores.projB hp (k := k + 9) (name := ["transformer", "h", toString i, "attn", "c_proj", "bias"]) rfl rfl rfl a.projb (hP 9 (by omega)) (hX 9 (by omega))) <|
    Stores.cons hp (n := k + 11) (Stores.vec hp (name := ["transformer", "h", toString i, "ln_2", "weight"]) (layer := "ln_2") rfl rfl (by decide) (by decide)
      (fun h => absurd h (by decide)) a.ln2w (hP 10 (by omega)) (hX 10 (by omega)) s10) <|
    Stores.cons hp (n := k + 12) (Stores.vec hp (name := ["transformer", "h", toString i, "ln_2", "bias"]) (layer := "ln_2") rfl rfl (by decide) (by decide)
      (fun h => absurd h (by decide)) a.ln2b (hP 11 (by omega)) (hX 11 (by omega)) s11) <|
    Stores.cons hp (n := k + 13) (Stores.mat hp (name := ["transformer", "h", toString i, "mlp", "c_fc", "weight"]) (layer := "c_fc") rfl rfl (by decide) (by decide)
      (fun h => absurd h (by decide)) a.fcw (hP 12 (by omega)) (hX 12 (by omega)) s12) <|
    Stores.cons hp (n := k + 14) (Stores.vec hp (name := ["transformer", "h", toString i, "mlp", "c_fc", "bias"]) (layer := "c_fc") rfl rfl (by decide) (by decide)
      (fun h => absurd h (by decide)) a.fcb (hP 13 (by omega)) (hX 13 (by omega)) s13) <|
    Stores.cons hp (n := k + 15) (Stores.mat hp (name := ["transformer", "h", toString i, "mlp", "c_proj", "weight"]) (layer := "c_proj") rfl rfl (by decide) (by decide)
      (fun _ => ⟨"mlp", rfl, by decide⟩) a.outw (hP 14 (by omega)) (hX 14 (by omega)) s14) <|
    Stores.cons hp (n := k + 16) (Stores.vec hp (name := ["transformer", "h", toString i, "mlp", "c_proj", "bias"]) (layer := "c_proj") rfl rfl (by decide) (by decide)
      (fun _ => ⟨"mlp", rfl, by decide⟩) a.outb (hP 15 (by omega)) (hX 15 (by omega)) s15) Stores.nil
  refine (key.eq fun st => rfl).imp ?_
  rintro l ⟨a0, _, rfl, h0, a1, _, rfl, h1, a2, _, rfl, h2, a3, _, rfl, h3, a4, _, rfl, h4, a5, _, rfl, h5, a6, _, rfl, h6, a7, _, rfl, h7, a8, _, rfl, h8, a9, _, rfl, h9, a10, _, rfl, h10,
    a11, _, rfl, h11, rfl⟩
  exact ⟨⟨a0, a1, a2, a3, a4, a5, a6, a7, a8, a9, a10, a11⟩, rfl, h0, h1, h2, h3, h4, s9 ▸ h5, h6, h7, h8, h9, h10, h11⟩

theorem Stores.blocks (hE : E = D * H) (hE0 : 0 < E) {as : List (TorchBlock (NdArray α))} {ts : List (TorchBlock (List Nat → α))} (ha : List.Forall₂ (fun a x => a.Is E inner x) as ts) :
    ∀ {qs : List (GptBlockP Moments)} {ys : List (GptBlockP (List Nat → α))} {pre post : List Moments} {xpre xpost : List (List Nat → α)} (_ : qs.length = as.length)
      (_ : ys.length = as.length) (_ : ∀ q ∈ qs, q.Shapes E H D inner)
      (_ : params = pre ++ (qs.flatMap GptBlockP.toList ++ post)) (_ : xs = xpre ++ (ys.flatMap GptBlockP.toList ++ xpost))
      (_ : pre.length = xpre.length) (i : Nat),
      Stores params xs tmpId (gpt2ToTorch E (params.map PyEntry.moments) tmpId (namedBlocks i as)) pre.length (pre.length + 16 * qs.length) (fun l =>
        ∃ bs : List (TorchBlock (NdArray α)), l = namedBlocks i bs ∧ List.Forall₂ (fun a x => a.Is E inner x) bs (ys.map (GptBlockP.toTorch E D))) := by
  induction ha with
  | nil =>
    intro qs ys pre post xpre xpost hl hl' _ _ _ _ i
    rw [List.length_nil, List.length_eq_zero_iff] at hl hl'
    subst hl hl'
    exact Stores.nil.imp fun l hl => ⟨[], hl, .nil⟩
  | @cons a t as ts h1 _ ih =>
    intro qs ys pre post xpre xpost hl hl' hs eP eX hpre i
    obtain ⟨q, qs, rfl⟩ : ∃ q qs', qs = q :: qs' := by
      cases qs with
      | nil => simp at hl
      | cons q qs => exact ⟨q, qs, rfl⟩
    obtain ⟨y, ys, rfl⟩ : ∃ q qs', ys = q :: qs' := by
      cases ys with
      | nil => simp at hl'
      | cons q qs => exact ⟨q, qs, rfl⟩
    simp only [List.flatMap_cons, List.append_assoc] at eP eX
    have := ih (qs := qs) (ys := ys) (pre := pre ++ q.toList) (post := post) (xpre := xpre ++ y.toList) (xpost := xpost) (by simpa using hl) (by simpa using hl')
      (fun q' h => hs q' (List.mem_cons_of_mem _ h)) (by rw [List.append_assoc]; exact eP) (by rw [List.append_assoc]; exact eX) (by
        rw [List.length_append, List.length_append, hpre]; rfl) (i + 1)
    rw [List.length_append] at this
    have e : pre.length + 16 * (q :: qs).length = pre.length + q.toList.length + 16 * qs.length := by
      rw [List.length_cons]
      change _ = pre.length + 16 + _
      ring
    rw [e]
    refine (Stores.append hp (n := pre.length + 16) (Stores.block hp hE hE0 (hs q (List.mem_cons_self ..)) h1 (fun j hj => getElem?_block rfl eP hj)
      (fun j hj => getElem?_block hpre eX hj) i) this).imp ?_
    rintro l ⟨_, _, rfl, ⟨b, rfl, hb⟩, bs, rfl, hbs⟩
    exact ⟨b :: bs, rfl, .cons hb hbs⟩

end

theorem flatMap_block_length {P : Type} (l : List (GptBlockP P)) : (l.flatMap GptBlockP.toList).length = 16 * l.length := by
  have : (l.map fun a => a.toList.length) = l.map fun _ => 16 := List.map_congr_left fun _ _ => rfl
  rw [List.length_flatMap, this, List.map_const', List.sum_replicate, smul_eq_mul]
  ring

/-- The whole loop. -/
theorem Stores.all {p : GptP Moments} {tmpId : Nat} (hp : ParamsOk p.toList tmpId) {E H D inner vocab maxPos : Nat} (hE : E = D * H) (hE0 : 0 < E)
    (hs : p.Shapes vocab maxPos E H D inner) {a : TorchGpt (NdArray α)} {t : TorchGpt (List Nat → α)} (ha : a.Is vocab maxPos E inner t) {x : GptP (List Nat → α)}
    (hl : p.blocks.length = a.blocks.length) (hx : x.blocks.length = a.blocks.length) :
    Stores p.toList x.toList tmpId (gpt2ToTorch E (p.toList.map PyEntry.moments) tmpId a.named) 0 p.toList.length (fun l =>
      ∃ b : TorchGpt (NdArray α), l = b.named ∧ b.Is vocab maxPos E inner (x.toTorch E D)) := by
  obtain ⟨c1, c2, c3, c4, c5, c6⟩ := hs
  have eP : p.toList = [p.wte, p.wpe] ++ (p.blocks.flatMap GptBlockP.toList ++ [p.gf, p.bf, p.lm]) := rfl
  have eX : x.toList = [x.wte, x.wpe] ++ (x.blocks.flatMap GptBlockP.toList ++ [x.gf, x.bf, x.lm]) := rfl
  have hlen : p.toList.length = 2 + 16 * p.blocks.length + 3 := by
    rw [eP, List.length_append, List.length_append, flatMap_block_length]
    change 2 + (_ + 3) = _
    ring
  have tP : ∀ j, j < 3 → p.toList[2 + 16 * p.blocks.length + j]? = [p.gf, p.bf, p.lm][j]? := fun j hj =>
    getElem?_block (pre := [p.wte, p.wpe] ++ p.blocks.flatMap GptBlockP.toList) (l := [p.gf, p.bf, p.lm]) (post := []) (by rw [List.length_append, flatMap_block_length]; rfl)
      (by rw [eP, List.append_nil, List.append_assoc]) hj
  have tX : ∀ j, j < 3 → x.toList[2 + 16 * p.blocks.length + j]? = [x.gf, x.bf, x.lm][j]? := fun j hj =>
    getElem?_block (pre := [x.wte, x.wpe] ++ x.blocks.flatMap GptBlockP.toList) (l := [x.gf, x.bf, x.lm]) (post := [])
      (by rw [List.length_append, flatMap_block_length, hl, ← hx]; rfl) (by rw [eX, List.append_nil, List.append_assoc]) hj
  rw [hlen, TorchGpt.named]
  have k1 := Stores.cons hp (E := E) (k := 0) (n := 1) (Stores.mat hp (xs := x.toList) (name := ["transformer", "wte", "weight"]) (layer := "wte") rfl rfl (by decide) (by decide)
      (fun h => absurd h (by decide)) a.wte rfl rfl c1) <|
    Stores.cons hp (n := 2) (Stores.mat hp (name := ["transformer", "wpe", "weight"]) (layer := "wpe") rfl rfl (by decide) (by decide)
      (fun h => absurd h (by decide)) a.wpe rfl rfl c2) Stores.nil
  have k2 := Stores.blocks hp (D := D) hE hE0 ha.blocks (pre := [p.wte, p.wpe]) hl hx c3 eP eX rfl 0
  have k3 := Stores.cons hp (E := E) (n := 2 + 16 * p.blocks.length + 1) (Stores.vec hp (name := ["transformer", "ln_f", "weight"]) (layer := "ln_f") rfl rfl (by decide) (by decide)
      (fun h => absurd h (by decide)) a.lnfw (tP 0 (by omega)) (tX 0 (by omega)) c4) <|
    Stores.cons hp (n := 2 + 16 * p.blocks.length + 2) (Stores.vec hp (name := ["transformer", "ln_f", "bias"]) (layer := "ln_f") rfl rfl (by decide) (by decide)
      (fun h => absurd h (by decide)) a.lnfb (tP 1 (by omega)) (tX 1 (by omega)) c5) <|
    Stores.cons hp (n := 2 + 16 * p.blocks.length + 3) (Stores.lmHead hp (name := ["lm_head", "weight"]) (p := a.lm) rfl rfl (tP 2 (by omega)) (tX 2 (by omega)) (ha.lm.1.trans c6.symm)) Stores.nil
  refine (Stores.append hp (Stores.append hp k1 k2) k3).imp ?_
  rintro l ⟨_, _, rfl, ⟨_, _, rfl, ⟨a0, _, rfl, h0, a1, _, rfl, h1, rfl⟩, bs, rfl, hbs⟩, a2, _, rfl, h2, a3, _, rfl, h3, a4, _, rfl, h4, rfl⟩
  exact ⟨⟨a0, a1, bs, a2, a3, a4⟩, rfl, h0, h1, hbs, h2, h3, c6 ▸ h4⟩

end NNTile
