import Verif.Props.C50
import Verif.Lib.FlashUneven
/-!
# C51: is FlashAttention a drop-in replacement for attention?

Whenever `FlashAttention.generate_simple` accepts its arguments, `forward_async` of the layer should give the output that `Attention` gives. This holds if there is a mask and the
tiles divide the sequence and the batch evenly. `generate_simple` accepts other arguments too:

* without a mask `forward_async` always raises an exception;
* with a sequence or a batch whose last tile is smaller than the others `forward_async` submits tasks which access memory outside of their buffers, whatever the store contains.
-/
namespace NNTile
noncomputable section

/-- With the arguments of C50_generate, a mask and tiles that divide the sequence and the batch evenly, FlashAttention gives the output of Attention. -/
theorem C51_drop_in_partial {xq xk xv : Moments} {z t : AttnDims} (hE : z.E = z.D * z.H) (ht : t.D = z.D) (hq : xq.Is [z.E, z.S, z.B] [t.E, t.S, t.B])
    (hk : xk.Is [z.Ek, z.S, z.B] [t.Ek, t.S, t.B]) (hv : xv.Is [z.Ev, z.S, z.B] [t.Ev, t.S, t.B])
    (pz : 0 < z.E ∧ 0 < z.Ek ∧ 0 < z.Ev ∧ 0 < z.S ∧ 0 < z.B) (pt : 0 < t.E ∧ 0 < t.Ek ∧ 0 < t.Ev ∧ 0 < t.S ∧ 0 < t.B ∧ 0 < t.H) (hH : t.H ∣ z.H) (hS : t.S ∣ z.S) (hB : t.B ∣ z.B)
    (bias : Bool) {T : Tensor} (hm : T.shape = [z.S, z.S] ∧ T.basetile = [t.S, t.S]) (val : ℝ) (redux : Bool) (next : Nat) (asIdx : ℝ → Int) :
    ∃ l, Attention.flashGenerate xq xk xv z.H t.H next bias (some T) val redux = .ok l ∧ l.xq = xq ∧ l.xk = xk ∧ l.xv = xv ∧ l.mask = some T ∧
      ((l.ins.flatMap Moments.ids ++ l.y.ids ++ l.temps.map Tensor.id).Nodup → ∀ (s : Store ℝ) (env : Env), ValuesHold l.ins s env → AllReady (l.y.value :: l.temps) s →
        ∃ s1 s2, Exec (l.forwardAsync asIdx false) s s1 ∧ Exec (l.flashForwardAsync asIdx false) s s2 ∧ ∀ I, InBox l.y.value.shape I → l.y.value.get s1 I = l.y.value.get s2 I) := by
  obtain ⟨l, e, e1, e2, e3, e4, -, fit, ft, -⟩ := C50_generate hE ht hq hk hv pz pt hH bias (some T) (by rintro T ⟨⟩; exact hm) val redux next
  refine ⟨l, e, e1, e2, e3, e4, fun ids s env v r => ?_⟩
  obtain ⟨ts, ts', s1, s2, a1, a2, a3, a4, a5⟩ := C50_same_output fit (ft hS hB) e4 asIdx ids v r
  exact ⟨s1, s2, ⟨ts, a1, a2⟩, ⟨ts', a3, a4⟩, a5⟩

/-- If the tiles do not divide the sequence or the batch evenly, `generate_simple` succeeds, but no execution of `forward_async` succeeds. -/
theorem C51_uneven_refuted {xq xk xv : Moments} {z t : AttnDims} (hE : z.E = z.D * z.H) (ht : t.D = z.D) (hq : xq.Is [z.E, z.S, z.B] [t.E, t.S, t.B])
    (hk : xk.Is [z.Ek, z.S, z.B] [t.Ek, t.S, t.B]) (hv : xv.Is [z.Ev, z.S, z.B] [t.Ev, t.S, t.B])
    (pz : 0 < z.E ∧ 0 < z.Ek ∧ 0 < z.Ev ∧ 0 < z.S ∧ 0 < z.B) (pt : 0 < t.E ∧ 0 < t.Ek ∧ 0 < t.Ev ∧ 0 < t.S ∧ 0 < t.B ∧ 0 < t.H) (hH : t.H ∣ z.H) (hu : ¬ (t.S ∣ z.S ∧ t.B ∣ z.B))
    (bias : Bool) {T : Tensor} (hm : T.shape = [z.S, z.S] ∧ T.basetile = [t.S, t.S]) (val : ℝ) (redux : Bool) (next : Nat) (asIdx : ℝ → Int) (invalidate : Bool) :
    ∃ l, Attention.flashGenerate xq xk xv z.H t.H next bias (some T) val redux = .ok l ∧ ∀ s s', ¬ Exec (l.flashForwardAsync asIdx invalidate) s s' := by
  obtain ⟨l, e, e1, e2, e3, e4, -, fit, -, -, -, wf, -⟩ := C50_generate hE ht hq hk hv pz pt hH bias (some T) (by rintro T ⟨⟩; exact hm) val redux next
  refine ⟨l, e, fun s s' h => ?_⟩
  have m := fun m (h : m ∈ [l.q, l.k, l.v, l.b]) => (attn_heads fit h).1
  rw [Attention.flashForwardAsync, Exec.append_iff] at h
  obtain ⟨s1, h, -⟩ := h
  rw [Exec.append_iff] at h
  obtain ⟨s2, -, h⟩ := h
  simp only [Attention.flashHeads, e4] at h
  rw [Exec.cons_iff] at h
  obtain ⟨s3, -, h⟩ := h
  rw [Exec.cons_iff] at h
  obtain ⟨s4, h, -⟩ := h
  exact (flash_maxsumexp_uneven ht (fun f => hu ⟨f.S, f.B⟩) (m l.q (by simp)) (m l.k (by simp)) hm fit.mse ⟨fit.a.1, fit.a.2.1⟩ (wf _ (by simp [Attention.temps])) _ _).2 _ _ h

/-- Without a mask `forward_async` never succeeds. -/
theorem C51_no_mask_refuted {l : Attention ℝ} (h : l.mask = none) (asIdx : ℝ → Int) (invalidate : Bool) (ts : List (Task1 ℝ)) : l.flashForwardAsync asIdx invalidate ≠ .ok ts := by
  intro e
  have key : ∀ (ps qs : List (M (List (Task1 ℝ)))) ts, seqAsync (ps ++ .error (.throw "TypeError") :: qs) ≠ .ok ts := by
    intro ps qs
    induction ps with
    | nil => intro ts h; simp only [List.nil_append, seqAsync] at h; rw [M.bind_eq_ok] at h; obtain ⟨_, h, -⟩ := h; cases h
    | cons p ps ih =>
      intro ts h
      simp only [List.cons_append, seqAsync] at h
      rw [M.bind_eq_ok] at h
      obtain ⟨_, -, h⟩ := h
      rw [M.bind_eq_ok] at h
      obtain ⟨_, h, -⟩ := h
      exact ih _ h
  simp only [Attention.flashForwardAsync, Attention.flashHeads, h] at e
  refine key (attnProject invalidate l.redux l.wq l.xq l.qT l.q l.biasQ ++ attnProject invalidate l.redux l.wk l.xk l.kT l.k l.biasK ++
    attnProject invalidate l.redux l.wv l.xv l.vT l.v l.biasV ++ [clearAsync l.aMaxsumexp]) ([.error (.throw "TypeError"), invalidateAsync invalidate l.aMaxsumexp] ++ l.combine invalidate) ts
    (Eq.trans ?_ e)
  simp only [List.append_assoc, List.cons_append, List.nil_append]

/-- The arguments of the example of C47: three positions in tiles of two. `Attention` works (`attnExample`), FlashAttention is created and does not. -/
example (asIdx : ℝ → Int) (val : ℝ) : ∃ l : Attention ℝ, Attention.flashGenerate attnExampleX attnExampleX attnExampleX 2 1 3 true (some attnExampleMask) val false = .ok l ∧
    ∀ s s', ¬ Exec (l.flashForwardAsync asIdx false) s s' := by
  have hx : attnExampleX.Is [4, 3, 2] [2, 2, 1] := ⟨rfl, rfl, fun _ => ⟨rfl, rfl⟩⟩
  exact C51_uneven_refuted (z := attnExampleDims) (t := attnExampleTile) rfl rfl hx hx hx (by decide) (by decide) (by decide) (by decide) true ⟨rfl, rfl⟩ val false 3 asIdx false

/-- A layer without a mask: it is created and does not work. -/
example (asIdx : ℝ → Int) (val : ℝ) : ∃ l : Attention ℝ, Attention.flashGenerate flashExampleX flashExampleX flashExampleX 2 1 3 true none val false = .ok l ∧
    ∀ ts, l.flashForwardAsync asIdx false ≠ .ok ts := by
  have hx : flashExampleX.Is [4, 4, 2] [2, 2, 1] := ⟨rfl, rfl, fun _ => ⟨rfl, rfl⟩⟩
  obtain ⟨l, h1, -, -, -, h5, -⟩ := C50_generate (z := flashExampleDims) (t := attnExampleTile) rfl rfl hx hx hx (by decide) (by decide) (by decide) true none (by simp) val false 3
  exact ⟨l, h1, C51_no_mask_refuted h5 asIdx false⟩

example : ∃ l : Attention ℝ, Attention.flashGenerate flashExampleX flashExampleX flashExampleX 2 1 3 true (some flashExampleMask) 0 false = .ok l := by
  have hx : flashExampleX.Is [4, 4, 2] [2, 2, 1] := ⟨rfl, rfl, fun _ => ⟨rfl, rfl⟩⟩
  obtain ⟨l, h, -⟩ := C51_drop_in_partial (z := flashExampleDims) (t := attnExampleTile) (T := flashExampleMask) rfl rfl hx hx hx (by decide) (by decide) (by decide) (by decide) (by decide) true
    ⟨rfl, rfl⟩ 0 false 3 (fun _ => 1)
  exact ⟨l, h⟩

end
end NNTile
