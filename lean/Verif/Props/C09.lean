import Verif.Lib.ScatterGather
import Verif.Lib.Elementwise
/-!
# C09 — scatter and gather are exact inverses through any tiling
-/
namespace NNTile
variable {α : Type}

/-- Scattering a single-tile tensor into any tiling: no error, every element of the destination gets the source element with the same
index (whatever the destination contained before), nothing else changes. -/
theorem C09_scatter {src dst : Tensor} (hs : src.WF) (hd : dst.WF) (hid : src.id ≠ dst.id) (hsh : src.shape = dst.shape)
    (h1 : src.ntiles = 1) {s : Store α} (has : src.Alloc s) (had : dst.Alloc s) (hdef : src.Defined s) :
    ∃ tasks s', scatterAsync src dst = .ok tasks ∧ runAll1 tasks s = .ok s' ∧
      (∀ I, InBox dst.shape I → ∃ v, src.get s I = some v ∧ dst.get s' I = some v) ∧ OnlyChanged [dst.id] s s' := by
  obtain ⟨t, s', a, b, c, d, -⟩ := scatterAsync_spec hs hd hid hsh h1 has had hdef
  refine ⟨t, s', a, b, ?_, d⟩
  intro I hI
  obtain ⟨v, hv⟩ := hdef I (hsh ▸ hI)
  exact ⟨v, hv, by rw [c I hI, hv]⟩

/-- Gathering any tiling into a single tile. -/
theorem C09_gather {src dst : Tensor} (hs : src.WF) (hd : dst.WF) (hid : src.id ≠ dst.id) (hsh : src.shape = dst.shape)
    (h1 : dst.ntiles = 1) {s : Store α} (has : src.Alloc s) (had : dst.Alloc s) (hdef : src.Defined s) :
    ∃ tasks s', gatherAsync src dst = .ok tasks ∧ runAll1 tasks s = .ok s' ∧
      (∀ I, InBox dst.shape I → ∃ v, src.get s I = some v ∧ dst.get s' I = some v) ∧ OnlyChanged [dst.id] s s' := by
  obtain ⟨t, s', a, b, c, d, -⟩ := gatherAsync_spec hs hd hid hsh h1 has had hdef
  refine ⟨t, s', a, b, ?_, d⟩
  intro I hI
  obtain ⟨v, hv⟩ := hdef I (hsh ▸ hI)
  exact ⟨v, hv, by rw [c I hI, hv]⟩

/-- Scatter to any tiling followed by gather restores the tensor: memory cell by memory cell of the single tile. -/
theorem C09_gather_scatter {src mid dst : Tensor} (hs : src.WF) (hm : mid.WF) (hd : dst.WF)
    (h12 : src.id ≠ mid.id) (h23 : mid.id ≠ dst.id)
    (hsh : src.shape = mid.shape) (hsh' : mid.shape = dst.shape) (h1 : src.ntiles = 1) (h3 : dst.ntiles = 1)
    {s : Store α} (has : src.Alloc s) (ham : mid.Alloc s) (had : dst.Alloc s) (hdef : src.Defined s) :
    ∃ t₁ s₁ t₂ s₂, scatterAsync src mid = .ok t₁ ∧ runAll1 t₁ s = .ok s₁ ∧ gatherAsync mid dst = .ok t₂ ∧ runAll1 t₂ s₁ = .ok s₂ ∧
      ∀ k, k < src.shape.prod → (s₂ (dst.id, 0)).data k = (s (src.id, 0)).data k := by
  obtain ⟨t₁, s₁, a, b, c, d, e⟩ := scatterAsync_spec hs hm h12 hsh h1 has ham hdef
  have had' : dst.Alloc s₁ := by
    intro i hi
    rw [d (dst.id, i) (by simpa using h23.symm)]
    exact had i hi
  have hdef' : mid.Defined s₁ := by
    intro I hI
    rw [c I hI]; exact hdef I (hsh ▸ hI)
  obtain ⟨t₂, s₂, a', b', c', d', -⟩ := gatherAsync_spec hm hd h23 hsh' h3 e had' hdef'
  refine ⟨t₁, s₁, t₂, s₂, a, b, a', b', ?_⟩
  intro k hk
  have hI := unlin_inBox hs.1 k
  have hx := c' _ (show InBox dst.shape (unlin src.shape k) by rw [← hsh', ← hsh]; exact hI)
  rw [c _ (by rw [← hsh]; exact hI), (hs.single h1).2 s _ hI, (hd.single h3).2 s₂ _ (by rw [← hsh', ← hsh]; exact hI),
    ← hsh', ← hsh, lin_unlin hk] at hx
  exact hx

/-- Wrong arguments are rejected by an exception, before any task is submitted. -/
theorem C09_rejects {src dst : Tensor} :
    (src.ntiles ≠ 1 ∨ src.shape ≠ dst.shape → Throws (scatterAsync (α := α) src dst)) ∧
    (dst.ntiles ≠ 1 ∨ src.shape ≠ dst.shape → Throws (gatherAsync (α := α) src dst)) := by
  constructor
  · intro h
    simp only [scatterAsync, throws_throwIf_bind]
    tauto
  · intro h
    simp only [gatherAsync, throws_throwIf_bind]
    tauto

/-- `copy` between tensors of the same shape and tiling copies every element exactly bit by bit, whatever the destination contained before. -/
theorem C09_copy {src dst : Tensor} {s : Store α} (hs : src.Ready s) (hd : dst.Ready s) (hlike : src.Like dst) (x : List Nat → α)
    (hx : src.Holds s x) : Computes (copyAsync src dst) s dst x := by
  obtain ⟨hid, h1, h2⟩ := hlike
  have e : src.ntiles = dst.ntiles := by simp [Tensor.ntiles, Tensor.grid, h1, h2]
  obtain ⟨s', h⟩ := run_ew (srcs := [src]) hd (by simp [hs.2, hid, h1, h2]) (fun rs _ n => rs = [n]) (fun i => submitCopy (src.id, i) (dst.id, i))
    (fun _ rs b => match rs with
      | [a] => copyKernel a b
      | _ => .error (.ub "buffers"))
    (by
      intro n rs b new h0 h1 h2 h3
      obtain ⟨a, rfl⟩ := List.length_eq_one_iff.1 h0
      have ha : a.size = n := h1 a (by simp)
      refine ⟨⟨b.size, fun k => if k < a.size then a.data k else b.data k⟩, if_pos (by omega), h2, ?_⟩
      intro i hi
      have := h3 i hi
      simp only [List.map_cons, List.map_nil, List.cons.injEq, and_true] at this
      simp [ha, hi, this])
    .W (by intro i hi; exact ⟨rfl, rfl, rfl, rfl⟩) x (by intro I hI; simp [hx I (h1 ▸ hI)])
  refine ⟨_, s', ?_, h⟩
  simp only [copyAsync]
  rw [throwIf_neg (by simpa using h1), M.bind_ok, throwIf_neg (by simpa using h2), M.bind_ok, e]
  apply forTasks_ok
  intro i hi
  rw [Tensor.handleL_ok (by omega), Tensor.handleL_ok hi]
  rfl

/-- `copy` accepts exactly equal shapes and tilings. -/
theorem C09_copy_rejects {src dst : Tensor} (h : src.shape ≠ dst.shape ∨ src.basetile ≠ dst.basetile) : Throws (copyAsync (α := α) src dst) := by
  simp only [copyAsync, throws_throwIf_bind]
  tauto

/-- The hypotheses are met by a `5×7` tensor, tiled `2×3` (leftovers in both dimensions). -/
example : ∃ (src mid dst : Tensor) (s : Store Nat), src.WF ∧ mid.WF ∧ dst.WF ∧ src.ntiles = 1 ∧ mid.ntiles = 9 ∧ dst.ntiles = 1 ∧
    src.Alloc s ∧ mid.Alloc s ∧ dst.Alloc s ∧ src.Defined s := by
  refine ⟨⟨0, [5,7], [5,7]⟩, ⟨1, [5,7], [2,3]⟩, ⟨2, [5,7], [9,7]⟩,
    fun h => ⟨if h.1 = 1 then ((⟨1, [5,7], [2,3]⟩ : Tensor).tshapeL h.2).prod else 35, fun _ => some 0⟩, by decide, by decide, by decide, by decide,
    by decide, by decide, ?_, ?_, ?_, ?_⟩
  · intro i hi
    have : i = 0 := by have : (⟨0, [5,7], [5,7]⟩ : Tensor).ntiles = 1 := by decide
                       omega
    subst this; decide
  · intro i hi; rfl
  · intro i hi
    have : i = 0 := by have : (⟨2, [5,7], [9,7]⟩ : Tensor).ntiles = 1 := by decide
                       omega
    subst this; decide
  · intro I hI; exact ⟨0, rfl⟩

end NNTile
