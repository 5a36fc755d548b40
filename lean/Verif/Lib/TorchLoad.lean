import Verif.Lib.Torch
/-!
# `GPT2Model.from_torch` loads all parameters
-/
namespace NNTile
variable {α : Type}

theorem Loads.nil {params : List Moments} {xs : List (List Nat → α)} {tmpId E H k : Nat} :
    Loads params xs tmpId (fromTorchParams E H (params.map PyEntry.moments) tmpId []) k k :=
  fun s hr hh => ⟨s, rfl, hr, hh, fun _ _ => rfl⟩

theorem Loads.cons {params : List Moments} {xs : List (List Nat → α)} {tmpId E H k n n' : Nat} {name : List String} {p : NdArray α} {qs : List (List String × NdArray α)}
    (h : Loads params xs tmpId (fromTorchParam E H (params.map PyEntry.moments) tmpId name p) k n)
    (h' : Loads params xs tmpId (fromTorchParams E H (params.map PyEntry.moments) tmpId qs) n n') :
    Loads params xs tmpId (fromTorchParams E H (params.map PyEntry.moments) tmpId ((name, p) :: qs)) k n' :=
  (h.seq h').eq fun _ => rfl

theorem Loads.append {params : List Moments} {xs : List (List Nat → α)} {tmpId E H k n n' : Nat} {ps qs : List (List String × NdArray α)}
    (h : Loads params xs tmpId (fromTorchParams E H (params.map PyEntry.moments) tmpId ps) k n)
    (h' : Loads params xs tmpId (fromTorchParams E H (params.map PyEntry.moments) tmpId qs) n n') :
    Loads params xs tmpId (fromTorchParams E H (params.map PyEntry.moments) tmpId (ps ++ qs)) k n' :=
  (h.seq h').eq fun _ => fromTorchParams_append _ _ _ _ _ _ _

section
variable {params : List Moments} {xs : List (List Nat → α)} {tmpId : Nat} (hp : ParamsOk params tmpId) {k : Nat} {E H D inner : Nat}
include hp

/-- A vector. -/
theorem Loads.vec {name : List String} {layer last : String} (h2 : nameBack name 2 = .ok layer) (h1 : nameBack name 1 = .ok last) (n1 : layer ≠ "lm_head") (n2 : layer ≠ "c_attn")
    (n3 : layer = "c_proj" → ∃ up, nameBack name 3 = .ok up ∧ up ≠ "attn") {n : Nat} {m : Moments} {x : List Nat → α} {p : NdArray α} (ha : p.Is [n] x) (hm : params[k]? = some m)
    (hx : xs[k]? = some x) (hS : m.value.shape = [n]) : Loads params xs tmpId (fromTorchParam E H (params.map PyEntry.moments) tmpId name p) k (k + 1) := by
  refine Loads.plain hp h2 h1 n1 n2 n3 ha hm hx hS fun I hI => ?_
  obtain ⟨i, rfl⟩ := List.length_eq_one_iff.1 hI.length
  rfl

/-- A transposed matrix. -/
theorem Loads.mat {name : List String} {layer last : String} (h2 : nameBack name 2 = .ok layer) (h1 : nameBack name 1 = .ok last) (n1 : layer ≠ "lm_head") (n2 : layer ≠ "c_attn")
    (n3 : layer = "c_proj" → ∃ up, nameBack name 3 = .ok up ∧ up ≠ "attn") {n n' : Nat} {m : Moments} {x y : List Nat → α} {p : NdArray α} (ha : p.Is [n, n'] y)
    (hm : params[k]? = some m) (hx : xs[k]? = some x) (hxy : x = fun I => y [I.getD 1 0, I.getD 0 0]) (hS : m.value.shape = [n', n]) :
    Loads params xs tmpId (fromTorchParam E H (params.map PyEntry.moments) tmpId name p) k (k + 1) := by
  refine Loads.plain hp h2 h1 n1 n2 n3 ha hm hx hS fun I hI => ?_
  obtain ⟨i, j, rfl⟩ := List.length_eq_two.1 hI.length
  rw [hxy]
  rfl

theorem Loads.block (hE : E = D * H) (hE0 : 0 < E) {q : GptBlockP Moments} (hq : q.Shapes E H D inner) {a : TorchBlock (NdArray α)} {t : TorchBlock (List Nat → α)} (ha : a.Is E inner t)
    (hP : ∀ j, j < 16 → params[k + j]? = q.toList[j]?) (hX : ∀ j, j < 16 → xs[k + j]? = (t.toNNTile E D).toList[j]?) (i : Nat) :
    Loads params xs tmpId (fromTorchParams E H (params.map PyEntry.moments) tmpId (a.named i)) k (k + 16) := by
  simp only [GptBlockP.Shapes, GptBlockP.toList, List.map_cons, List.map_nil, List.cons.injEq, and_true] at hq
  obtain ⟨s0, s1, s2, s3, s4, s5, s6, s7, s8, s9, s10, s11, s12, s13, s14, s15⟩ := hq
  have nP : "c_fc" = "c_proj" → ∃ up, nameBack ["transformer", "h", toString i, "mlp", "c_fc", "weight"] 3 = .ok up ∧ up ≠ "attn" := fun h => absurd h (by decide)
  refine Loads.cons (n := k + 1) (Loads.vec hp (layer := "ln_1") rfl rfl (by decide) (by decide) (fun h => absurd h (by decide)) ha.ln1w (hP 0 (by omega)) (hX 0 (by omega)) s0) ?_
  refine Loads.cons (n := k + 2) (Loads.vec hp (layer := "ln_1") rfl rfl (by decide) (by decide) (fun h => absurd h (by decide)) ha.ln1b (hP 1 (by omega)) (hX 1 (by omega)) s1) ?_
  refine Loads.cons (n := k + 5) (Loads.attnW hp (k := k + 2) rfl rfl hE hE0 ha.attnw ?_) ?_
  · intro c hc
    obtain rfl | rfl | rfl : c = 0 ∨ c = 1 ∨ c = 2 := by omega
    · exact ⟨q.wq, _, hP 2 (by omega), hX 2 (by omega), s2, fun h d e _ _ _ => rfl⟩
    · exact ⟨q.wk, _, hP 3 (by omega), hX 3 (by omega), s3, fun h d e _ _ _ => rfl⟩
    · exact ⟨q.wv, _, hP 4 (by omega), hX 4 (by omega), s4, fun h d e _ _ _ => rfl⟩
  refine Loads.cons (n := k + 8) (Loads.attnB hp (k := k + 5) rfl rfl hE hE0 ha.attnb ?_) ?_
  · intro c hc
    obtain rfl | rfl | rfl : c = 0 ∨ c = 1 ∨ c = 2 := by omega
    · exact ⟨q.bq, _, hP 5 (by omega), hX 5 (by omega), s5, fun d h _ _ => rfl⟩
    · exact ⟨q.bk, _, hP 6 (by omega), hX 6 (by omega), s6, fun d h _ _ => rfl⟩
    · exact ⟨q.bv, _, hP 7 (by omega), hX 7 (by omega), s7, fun d h _ _ => rfl⟩
  refine Loads.cons (n := k + 9) (Loads.projW hp (k := k + 8) rfl rfl rfl hE hE0 ha.projw (hP 8 (by omega)) (hX 8 (by omega)) s8 fun e h d _ _ _ => rfl) ?_
  refine Loads.cons (n := k + 10) (Loads.projB hp (k := k + 9) rfl rfl rfl (hP 9 (by omega)) (hX 9 (by omega)) (s9 ▸ ha.projb)) ?_
  refine Loads.cons (n := k + 11) (Loads.vec hp (layer := "ln_2") rfl rfl (by decide) (by decide) (fun h => absurd h (by decide)) ha.ln2w (hP 10 (by omega)) (hX 10 (by omega)) s10) ?_
  refine Loads.cons (n := k + 12) (Loads.vec hp (layer := "ln_2") rfl rfl (by decide) (by decide) (fun h => absurd h (by decide)) ha.ln2b (hP 11 (by omega)) (hX 11 (by omega)) s11) ?_
  refine Loads.cons (n := k + 13) (Loads.mat hp (layer := "c_fc") rfl rfl (by decide) (by decide) (fun h => absurd h (by decide)) ha.fcw (hP 12 (by omega)) (hX 12 (by omega)) rfl s12) ?_
  refine Loads.cons (n := k + 14) (Loads.vec hp (layer := "c_fc") rfl rfl (by decide) (by decide) (fun h => absurd h (by decide)) ha.fcb (hP 13 (by omega)) (hX 13 (by omega)) s13) ?_
  refine Loads.cons (n := k + 15) (Loads.mat hp (layer := "c_proj") rfl rfl (by decide) (by decide) (fun _ => ⟨"mlp", rfl, by decide⟩) ha.outw (hP 14 (by omega)) (hX 14 (by omega)) rfl s14) ?_
  exact Loads.cons (n := k + 16) (Loads.vec hp (layer := "c_proj") rfl rfl (by decide) (by decide) (fun _ => ⟨"mlp", rfl, by decide⟩) ha.outb (hP 15 (by omega)) (hX 15 (by omega)) s15) Loads.nil

end

theorem getElem?_block {β : Type} {pre l post : List β} {k : Nat} (hk : k = pre.length) {L : List β} (e : L = pre ++ (l ++ post)) {j : Nat} (hj : j < l.length) : L[k + j]? = l[j]? := by
  rw [e, hk, List.getElem?_append_right (by omega), Nat.add_sub_cancel_left, List.getElem?_append_left hj]

theorem Loads.blocks {params : List Moments} {xs : List (List Nat → α)} {tmpId : Nat} (hp : ParamsOk params tmpId) {E H D inner : Nat} (hE : E = D * H) (hE0 : 0 < E)
    {as : List (TorchBlock (NdArray α))} {ts : List (TorchBlock (List Nat → α))} (ha : List.Forall₂ (fun a x => a.Is E inner x) as ts) :
    ∀ {qs : List (GptBlockP Moments)} {pre post : List Moments} {xpre xpost : List (List Nat → α)} (_ : qs.length = as.length) (_ : ∀ q ∈ qs, q.Shapes E H D inner)
      (_ : params = pre ++ (qs.flatMap GptBlockP.toList ++ post)) (_ : xs = xpre ++ ((ts.map (TorchBlock.toNNTile E D)).flatMap GptBlockP.toList ++ xpost))
      (_ : pre.length = xpre.length) (i : Nat),
      Loads params xs tmpId (fromTorchParams E H (params.map PyEntry.moments) tmpId (namedBlocks i as)) pre.length (pre.length + 16 * qs.length) := by
  induction ha with
  | nil =>
    intro qs pre post xpre xpost hl _ _ _ _ i
    rw [List.length_nil, List.length_eq_zero_iff] at hl
    subst hl
    exact Loads.nil
  | @cons a t as ts h1 _ ih =>
    intro qs pre post xpre xpost hl hs eP eX hpre i
    obtain ⟨q, qs, rfl⟩ : ∃ q qs', qs = q :: qs' := by
      cases qs with
      | nil => simp at hl
      | cons q qs => exact ⟨q, qs, rfl⟩
    simp only [List.flatMap_cons, List.map_cons, List.append_assoc] at eP eX
    refine Loads.append (n := pre.length + 16) (Loads.block hp hE hE0 (hs q (List.mem_cons_self ..)) h1 (fun j hj => getElem?_block rfl eP hj)
      (fun j hj => getElem?_block hpre eX hj) i) ?_
    have := ih (qs := qs) (pre := pre ++ q.toList) (post := post) (xpre := xpre ++ (t.toNNTile E D).toList) (xpost := xpost) (by simpa using hl)
      (fun q' h => hs q' (List.mem_cons_of_mem _ h)) (by rw [List.append_assoc]; exact eP) (by rw [List.append_assoc]; exact eX) (by
        rw [List.length_append, List.length_append, hpre]; rfl) (i + 1)
    rw [List.length_append] at this
    have e : pre.length + 16 * (q :: qs).length = pre.length + q.toList.length + 16 * qs.length := by
      rw [List.length_cons]
      change _ = pre.length + 16 + _
      ring
    rw [e]
    exact this

/-- The whole loop. -/
theorem Loads.all {p : GptP Moments} {tmpId : Nat} (hp : ParamsOk p.toList tmpId) {E H D inner vocab maxPos : Nat} (hE : E = D * H) (hE0 : 0 < E)
    (hs : p.Shapes vocab maxPos E H D inner) {a : TorchGpt (NdArray α)} {t : TorchGpt (List Nat → α)} (ha : a.Is vocab maxPos E inner t) (hl : p.blocks.length = a.blocks.length) :
    Loads p.toList (t.toNNTile E D).toList tmpId (fromTorchParams E H (p.toList.map PyEntry.moments) tmpId a.named) 0 p.toList.length := by
  obtain ⟨c1, c2, c3, c4, c5, c6⟩ := hs
  have hlen : p.toList.length = 2 + 16 * p.blocks.length + 3 := by
    rw [GptP.toList]
    simp only [List.length_cons, List.length_append, List.length_flatMap, List.length_nil]
    have : (p.blocks.map fun a => a.toList.length) = p.blocks.map fun _ => 16 := List.map_congr_left fun _ _ => rfl
    rw [this, List.map_const', List.sum_replicate, smul_eq_mul]
    ring
  have eP : p.toList = [p.wte, p.wpe] ++ (p.blocks.flatMap GptBlockP.toList ++ [p.gf, p.bf, p.lm]) := rfl
  have eX : (t.toNNTile E D).toList = [(t.toNNTile E D).wte, (t.toNNTile E D).wpe] ++ ((t.blocks.map (TorchBlock.toNNTile E D)).flatMap GptBlockP.toList ++ [t.lnfw, t.lnfb, t.lm]) := rfl
  have hlX : ((t.blocks.map (TorchBlock.toNNTile E D)).flatMap GptBlockP.toList).length = 16 * p.blocks.length := by
    have : ((t.blocks.map (TorchBlock.toNNTile E D)).map fun a => a.toList.length) = (t.blocks.map (TorchBlock.toNNTile E D)).map fun _ => 16 := List.map_congr_left fun _ _ => rfl
    rw [List.length_flatMap, this, List.map_const', List.sum_replicate, smul_eq_mul, List.length_map, ← ha.blocks.length_eq, hl]
    ring
  have hlP : (p.blocks.flatMap GptBlockP.toList).length = 16 * p.blocks.length := by
    have : (p.blocks.map fun a => a.toList.length) = p.blocks.map fun _ => 16 := List.map_congr_left fun _ _ => rfl
    rw [List.length_flatMap, this, List.map_const', List.sum_replicate, smul_eq_mul]
    ring
  have tP : ∀ j, j < 3 → p.toList[2 + 16 * p.blocks.length + j]? = [p.gf, p.bf, p.lm][j]? := fun j hj =>
    getElem?_block (pre := [p.wte, p.wpe] ++ p.blocks.flatMap GptBlockP.toList) (l := [p.gf, p.bf, p.lm]) (post := []) (by rw [List.length_append, hlP]; rfl)
      (by rw [eP, List.append_nil, List.append_assoc]) hj
  have tX : ∀ j, j < 3 → (t.toNNTile E D).toList[2 + 16 * p.blocks.length + j]? = [t.lnfw, t.lnfb, t.lm][j]? := fun j hj =>
    getElem?_block (pre := [(t.toNNTile E D).wte, (t.toNNTile E D).wpe] ++ (t.blocks.map (TorchBlock.toNNTile E D)).flatMap GptBlockP.toList) (l := [t.lnfw, t.lnfb, t.lm]) (post := [])
      (by rw [List.length_append, hlX]; rfl) (by rw [eX, List.append_nil, List.append_assoc]) hj
  rw [hlen, TorchGpt.named]
  refine Loads.append (n := 2 + 16 * p.blocks.length) (Loads.append (n := 2) ?_ ?_) ?_
  · refine Loads.cons (n := 1) (Loads.mat hp (layer := "wte") rfl rfl (by decide) (by decide) (fun h => absurd h (by decide)) ha.wte rfl rfl rfl c1) ?_
    exact Loads.cons (n := 2) (Loads.mat hp (layer := "wpe") rfl rfl (by decide) (by decide) (fun h => absurd h (by decide)) ha.wpe rfl rfl rfl c2) Loads.nil
  · exact Loads.blocks hp hE hE0 ha.blocks (pre := [p.wte, p.wpe]) hl c3 eP eX rfl 0
  · refine Loads.cons (n := 2 + 16 * p.blocks.length + 1) (Loads.vec hp (layer := "ln_f") rfl rfl (by decide) (by decide) (fun h => absurd h (by decide)) ha.lnfw
      (tP 0 (by omega)) (tX 0 (by omega)) c4) ?_
    refine Loads.cons (n := 2 + 16 * p.blocks.length + 2) (Loads.vec hp (layer := "ln_f") rfl rfl (by decide) (by decide) (fun h => absurd h (by decide)) ha.lnfb
      (tP 1 (by omega)) (tX 1 (by omega)) c5) ?_
    exact Loads.cons (n := 2 + 16 * p.blocks.length + 3) (Loads.lmHead hp rfl rfl (tP 2 (by omega)) (tX 2 (by omega)) (c6 ▸ ha.lm)) Loads.nil

end NNTile
