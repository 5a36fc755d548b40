import Verif.Props.C47
import Verif.Lib.FlashLayerBackward
/-!
# C50: the FlashAttention layer
-/
namespace NNTile
open Finset
noncomputable section

/-- The FlashAttention layer with a mask, with or without biases, whose tiles evenly divide the sequence, the batch and the heads, satisfies the contract of a layer
(`NetLayer.Correct`) with the same inputs, output and function `l.F` as the attention layer (C47): `forward_async` writes `l.F` to the output whatever the output and temporary
tensors contain before, changes nothing else; `backward_async` afterwards adds the product of the transposed Jacobian of `l.F` with the gradient of the output to the gradients of
inputs, weights and biases which are required and changes nothing else. -/
theorem C50_flash_attention {l : Attention ℝ} {z t : AttnDims} (fit : l.Fits z t) (ft : FlashTiles z t) {T : Tensor} (mask : l.mask = some T) (asIdx : ℝ → Int)
    (ids : (l.toFlashNet z asIdx false).ids.Nodup) : (l.toFlashNet z asIdx false).Correct := by
  have ids' := ids
  rw [Attention.toFlashNet_ids] at ids'
  have hc := C47_attention fit asIdx false ids'
  obtain ⟨m1, m2, m3, m4, m5, m6, m7, m8, m9, m10, m11, m12⟩ := l.mem_ins
  have hb : ∀ env env' : Env, (∀ m ∈ l.ins, env m.value.id = env' m.value.id) → ∀ o : Option Moments, (∀ m, o = some m → m ∈ l.ins) → biasAt o env = biasAt o env' := by
    intro env env' he o ho
    cases o with
    | none => rfl
    | some b => funext I; simp only [biasAt, he b (ho b rfl)]
  have hm : ∀ env env' : Env, (∀ m ∈ l.ins, env m.value.id = env' m.value.id) → maskAt asIdx l.mask env = maskAt asIdx l.mask env' := by
    intro env env' he
    cases e : l.mask with
    | none => rfl
    | some T =>
      funext I
      have := he _ (m12 T e)
      simp only [maskMoments] at this
      simp only [maskAt, this]
  have hQ : ∀ env env' : Env, (∀ m ∈ l.ins, env m.value.id = env' m.value.id) → l.Q z env = l.Q z env' ∧ l.K z env = l.K z env' ∧ l.V z env = l.V z env' ∧
      l.scores z asIdx env = l.scores z asIdx env' ∧ l.headsOut z asIdx env = l.headsOut z asIdx env' := by
    intro env env' he
    have q : l.Q z env = l.Q z env' := by simp only [Attention.Q, he _ m4, he _ m1, hb env env' he _ m8]
    have k : l.K z env = l.K z env' := by simp only [Attention.K, he _ m5, he _ m2, hb env env' he _ m9]
    have v : l.V z env = l.V z env' := by simp only [Attention.V, he _ m6, he _ m3, hb env env' he _ m10]
    have a : l.scores z asIdx env = l.scores z asIdx env' := by simp only [Attention.scores, q, k, hm env env' he]
    have a' : l.A z asIdx env = l.A z asIdx env' := congrArg (attnWeights z.S) a
    exact ⟨q, k, v, a, by simp only [Attention.headsOut, v, a']⟩
  refine ⟨hc.required, hc.nodup, hc.localF, ?_, fun _ _ _ _ => trivial, ?_, ?_, ?_⟩
  · intro env env' he s hs
    obtain ⟨q, k, v, a, h⟩ := hQ env env' he
    change _ ∧ _ ∧ _ ∧ _ ∧ _ at hs
    change _ ∧ _ ∧ _ ∧ _ ∧ _
    rwa [← q, ← k, ← v, ← a, ← h]
  · intro env s s' ids' hc hT hs
    obtain ⟨h1, h2, h3, ⟨w, h4, h4'⟩, h5⟩ := hs
    change ∀ T ∈ l.temps, _ at hT
    refine ⟨hc.holds h1 (hT _ ?_), hc.holds h2 (hT _ ?_), hc.holds h3 (hT _ ?_), ⟨w, hc.holds h4 (hT _ ?_), h4'⟩, hc.holds h5 (hT _ ?_)⟩ <;> simp [Attention.temps]
  · intro s env _ hv hr
    exact flash_forward fit ft mask ids hv hr
  · intro s env dy g0 _ hv hs hr yr yh hg
    exact (flash_backward fit ft mask ids hv hs hr yr yh hg).imp (fun _ h => h) fun s' _ h => ⟨h.1, _, h.2, attn_vjp fit hc.nodup asIdx env dy⟩

/-- FlashAttention and attention leave the same output. -/
theorem C50_same_output {l : Attention ℝ} {z t : AttnDims} (fit : l.Fits z t) (ft : FlashTiles z t) {T : Tensor} (mask : l.mask = some T) (asIdx : ℝ → Int)
    (ids : (l.ins.flatMap Moments.ids ++ l.y.ids ++ l.temps.map Tensor.id).Nodup) {s : Store ℝ} {env : Env} (hv : ValuesHold l.ins s env)
    (hr : AllReady (l.y.value :: l.temps) s) :
    ∃ ts ts' s1 s2, l.forwardAsync asIdx false = .ok ts ∧ runAll1 ts s = .ok s1 ∧ l.flashForwardAsync asIdx false = .ok ts' ∧ runAll1 ts' s = .ok s2 ∧
      ∀ I, InBox l.y.value.shape I → l.y.value.get s1 I = l.y.value.get s2 I := by
  obtain ⟨ts, s1, e1, e2, -, e3, -⟩ := attn_forward fit (asIdx := asIdx) (en := false) (z := z) ids hv hr
  obtain ⟨ts', s2, f1, f2, -, f3, -⟩ := flash_forward fit ft mask (asIdx := asIdx) (by rw [Attention.toFlashNet_ids]; exact ids) hv hr
  exact ⟨ts, ts', s1, s2, e1, e2, f1, f2, fun I hI => by rw [e3 I hI, f3 I hI]⟩

theorem Attention.Fits.init {l : Attention ℝ} {z t : AttnDims} (fit : l.Fits z t) (hE : z.E = z.D * z.H) (hp : 0 < z.E) :
    l.init = .ok { l with nHead := z.H, headSize := z.D } := by
  have p0 : ∀ a (L : List Nat), pyIndex (a :: L) 0 = .ok a := fun a L => by simp [pyIndex, throwIf]; rfl
  have zH : 0 < z.H := Nat.pos_of_ne_zero fun e => by simp [hE, e] at hp
  have hd : z.D * z.H / z.H = z.D := Nat.mul_div_cancel _ zH
  rw [Attention.init, fit.wq.1, fit.xq.1, p0, p0, M.bind_ok, M.bind_ok, hE, hd, throwIf_neg zH.ne', M.bind_ok, throwIf_neg (by simp), M.bind_ok]

/-- `FlashAttention.generate_simple` succeeds if the embedding size is a multiple of the number of heads, the size of its tiles divides the number of heads, the three inputs
have the same sequence and batch dimensions with the same tiling and all sizes are positive; the layer it returns fits, all new tensors are well formed with new, different
identities. If the tiles divide the sequence and the batch too, `C50_flash_attention` applies. -/
theorem C50_generate {xq xk xv : Moments} {z t : AttnDims} (hE : z.E = z.D * z.H) (ht : t.D = z.D) (hq : xq.Is [z.E, z.S, z.B] [t.E, t.S, t.B])
    (hk : xk.Is [z.Ek, z.S, z.B] [t.Ek, t.S, t.B]) (hv : xv.Is [z.Ev, z.S, z.B] [t.Ev, t.S, t.B])
    (pz : 0 < z.E ∧ 0 < z.Ek ∧ 0 < z.Ev ∧ 0 < z.S ∧ 0 < z.B) (pt : 0 < t.E ∧ 0 < t.Ek ∧ 0 < t.Ev ∧ 0 < t.S ∧ 0 < t.B ∧ 0 < t.H) (hH : t.H ∣ z.H)
    (bias : Bool) (mask : Option Tensor) (hm : ∀ T, mask = some T → T.shape = [z.S, z.S] ∧ T.basetile = [t.S, t.S]) (val : ℝ) (redux : Bool) (next : Nat) :
    ∃ l, Attention.flashGenerate xq xk xv z.H t.H next bias mask val redux = .ok l ∧ l.xq = xq ∧ l.xk = xk ∧ l.xv = xv ∧ l.mask = mask ∧ l.val = val ∧ l.Fits z t ∧
      (t.S ∣ z.S → t.B ∣ z.B → FlashTiles z t) ∧
      (l.biasQ.isSome = bias ∧ l.biasK.isSome = bias ∧ l.biasV.isSome = bias ∧ l.biasOut.isSome = bias) ∧
      (∀ m ∈ l.params ++ [l.y], m.value.WF ∧ m.grad.shape = m.value.shape ∧ m.grad.basetile = m.value.basetile ∧ m.gradRequired = true) ∧ (∀ T ∈ l.temps, T.WF) ∧
      (let new := l.params.flatMap Moments.ids ++ (l.y.ids ++ l.temps.map Tensor.id); new.Nodup ∧ ∀ i ∈ new, next ≤ i ∧ i < next + 38) := by
  obtain ⟨l, e, e1, e2, e3, e4, e5, fit, e6, e7, e8, e9⟩ := C47_generate hE ht hq hk hv pz pt bias mask hm val redux next
  have p0 : ∀ a (L : List Nat), pyIndex (a :: L) 0 = .ok a := fun a L => by simp [pyIndex, throwIf]; rfl
  refine ⟨{ l with nHead := z.H, headSize := z.D }, ?_, e1, e2, e3, e4, e5, ?_, fun h1 h2 => ⟨ht, h1, h2, hH⟩, e6, e7, e8, e9⟩
  · rw [Attention.flashGenerate, e, M.bind_ok, Attention.flashInit, fit.wq.1, fit.wq.2.1, p0, p0, M.bind_ok, M.bind_ok, throwIf_neg (by simpa using Nat.mod_eq_zero_of_dvd hH), M.bind_ok,
      fit.init hE pz.1]
  · exact ⟨fit.xq, fit.xk, fit.xv, fit.y, fit.wq, fit.wk, fit.wv, fit.w, fit.tT, fit.t4, fit.a, fit.mse, fit.sps, fit.bqkv, fit.bo, fit.mask, rfl, fit.required⟩

/-- `FlashAttention.generate_simple` raises an exception in all the cases in which `Attention.generate_simple` does (C47_generate_rejects). -/
theorem C50_generate_rejects {xq xk xv : Moments} (nHead nHeadTile next : Nat) (bias : Bool) (mask : Option Tensor) (val : ℝ) (redux : Bool)
    (h : xq.value.shape.length ≠ 3 ∨ nHead = 0 ∨ ¬ nHead ∣ xq.value.shape.getD 0 0 ∨ xk.value.shape.drop 1 ≠ xq.value.shape.drop 1 ∨ xv.value.shape.drop 1 ≠ xq.value.shape.drop 1 ∨
      xk.value.basetile.drop 1 ≠ xq.value.basetile.drop 1 ∨ xv.value.basetile.drop 1 ≠ xq.value.basetile.drop 1) :
    Throws (Attention.flashGenerate xq xk xv nHead nHeadTile next bias mask val redux) := by
  obtain ⟨e, h⟩ := C47_generate_rejects nHead nHeadTile next bias mask val redux h
  rw [Attention.flashGenerate, h]
  exact ⟨e, rfl⟩

/-- With otherwise valid arguments it raises an exception if the tiles do not divide the heads evenly. -/
theorem C50_generate_uneven_heads {xq xk xv : Moments} {z t : AttnDims} (hE : z.E = z.D * z.H) (ht : t.D = z.D) (hq : xq.Is [z.E, z.S, z.B] [t.E, t.S, t.B])
    (hk : xk.Is [z.Ek, z.S, z.B] [t.Ek, t.S, t.B]) (hv : xv.Is [z.Ev, z.S, z.B] [t.Ev, t.S, t.B])
    (pz : 0 < z.E ∧ 0 < z.Ek ∧ 0 < z.Ev ∧ 0 < z.S ∧ 0 < z.B) (pt : 0 < t.E ∧ 0 < t.Ek ∧ 0 < t.Ev ∧ 0 < t.S ∧ 0 < t.B ∧ 0 < t.H) (hH : ¬ t.H ∣ z.H)
    (bias : Bool) (mask : Option Tensor) (hm : ∀ T, mask = some T → T.shape = [z.S, z.S] ∧ T.basetile = [t.S, t.S]) (val : ℝ) (redux : Bool) (next : Nat) :
    Throws (Attention.flashGenerate xq xk xv z.H t.H next bias mask val redux) := by
  obtain ⟨l, e, -, -, -, -, -, fit, -⟩ := C47_generate hE ht hq hk hv pz pt bias mask hm val redux next
  have p0 : ∀ a (L : List Nat), pyIndex (a :: L) 0 = .ok a := fun a L => by simp [pyIndex, throwIf]; rfl
  rw [Attention.flashGenerate, e, M.bind_ok, Attention.flashInit, fit.wq.1, fit.wq.2.1, p0, p0, M.bind_ok, M.bind_ok]
  exact throws_pos fun e => hH (Nat.dvd_of_mod_eq_zero (by simpa using e))

/-! ### The hypotheses can be met: self-attention with biases and a mask, two heads of size 2, four positions in two tiles -/

def flashExampleX : Moments := ⟨⟨0, [4, 4, 2], [2, 2, 1]⟩, ⟨1, [4, 4, 2], [2, 2, 1]⟩, true⟩
def flashExampleMask : Tensor := ⟨2, [4, 4], [2, 2]⟩
def flashExampleDims : AttnDims := ⟨4, 4, 4, 4, 2, 2, 2⟩

theorem flashExample (asIdx : ℝ → Int) (val : ℝ) : ∃ l : Attention ℝ, Attention.flashGenerate flashExampleX flashExampleX flashExampleX 2 1 3 true (some flashExampleMask) val false = .ok l ∧
    l.Fits flashExampleDims attnExampleTile ∧ FlashTiles flashExampleDims attnExampleTile ∧ l.mask = some flashExampleMask ∧ (l.toFlashNet flashExampleDims asIdx false).Correct := by
  have hx : flashExampleX.Is [4, 4, 2] [2, 2, 1] := ⟨rfl, rfl, fun _ => ⟨rfl, rfl⟩⟩
  obtain ⟨l, h1, h2, h3, h4, h5, h6, h7, ft, h8, h9, h10, h11, h12⟩ := C50_generate (z := flashExampleDims) (t := attnExampleTile) rfl rfl hx hx hx (by decide) (by decide) (by decide) true
    (some flashExampleMask) (by rintro T ⟨⟩; exact ⟨rfl, rfl⟩) val false 3
  have ft := ft (by decide) (by decide)
  refine ⟨l, h1, h7, ft, h5, C50_flash_attention h7 ft h5 asIdx ?_⟩
  rw [Attention.toFlashNet_ids]
  have e : (l.toNet flashExampleDims asIdx false).ids.Perm ([0, 1, 2] ++ (l.params.flatMap Moments.ids ++ (l.y.ids ++ l.temps.map Tensor.id))) := by
    rw [List.perm_iff_count]
    intro a
    have ed : [flashExampleX, flashExampleX, flashExampleX].dedup = [flashExampleX] := by simp
    simp only [NetLayer.ids, Attention.toNet, Attention.ins, h2, h3, h4, h5, ed, Attention.params, List.flatMap_append, List.flatMap_cons, List.flatMap_nil, List.count_append,
      List.filterMap_cons, List.filterMap_nil, id_eq, Option.map_some, Option.toList_some, List.append_nil, List.count_nil]
    obtain ⟨b1, b2, b3, b4⟩ := h8
    obtain ⟨b1, e1⟩ := Option.isSome_iff_exists.1 b1
    obtain ⟨b2, e2⟩ := Option.isSome_iff_exists.1 b2
    obtain ⟨b3, e3⟩ := Option.isSome_iff_exists.1 b3
    obtain ⟨b4, e4⟩ := Option.isSome_iff_exists.1 b4
    have ex : flashExampleX.ids = [0, 1] := rfl
    have em : (maskMoments flashExampleMask).ids = [2] := rfl
    have e3' : ([0, 1, 2] : List Nat) = [0, 1] ++ [2] := rfl
    simp only [e1, e2, e3, e4, ex, em, e3', List.flatMap_cons, List.flatMap_nil, List.count_append, List.append_nil]
    omega
  rw [e.nodup_iff, List.nodup_append]
  refine ⟨by decide, h11, ?_⟩
  rintro i hi j hj rfl
  have := (h12 i hj).1
  simp at hi
  omega

example : ∃ (l : Attention ℝ) (z t : AttnDims) (asIdx : ℝ → Int), l.Fits z t ∧ FlashTiles z t ∧ (l.toFlashNet z asIdx false).Correct :=
  (flashExample (fun _ => 1) (-10)).elim fun l h => ⟨l, _, _, _, h.2.1, h.2.2.1, h.2.2.2.2⟩

end
end NNTile
