import Verif.Lib.CopyIntersectionTile
/-!
# C10: `copy_intersection` updates exactly the intersection

Element `J` of `src` is at the global place `src_offset + J`, element `I` of `dst` at `dst_offset + I` (`SamePlace`,
`Verif/Spec/Index.lean`). Offsets are arbitrary integers, the two tensors are tiled independently.
-/
namespace NNTile
variable {α : Type}

/-- Tensor-level: elements of `dst` at a place of `src` get its value, every other element of `dst` is unchanged, no other tensor is
changed, and the call neither throws nor reaches undefined behaviour. -/
theorem C10_copy_intersection (src dst : Tensor) (srcOff dstOff : List Int) (s : Store α)
    (hs : src.WF) (hd : dst.WF) (hid : src.id ≠ dst.id)
    (hl1 : srcOff.length = src.shape.length) (hl2 : src.shape.length = dst.shape.length) (hl3 : dstOff.length = dst.shape.length)
    (has : src.Alloc s) (had : dst.Alloc s) (hdef : src.Defined s) :
    ∃ tasks s', copyIntersectionAsync src srcOff dst dstOff = .ok tasks ∧ runAll1 tasks s = .ok s' ∧
      (∀ I, InBox dst.shape I →
        (∀ J, InBox src.shape J → SamePlace srcOff J dstOff I → dst.get s' I = src.get s J) ∧
        ((∀ J, InBox src.shape J → ¬ SamePlace srcOff J dstOff I) → dst.get s' I = dst.get s I)) ∧
      OnlyChanged [dst.id] s s' :=
  let ⟨t, s', a, b, c, d, _⟩ := copyIntersectionAsync_spec hs hd hid hl1 hl2 hl3 has had hdef
  ⟨t, s', a, b, c, d⟩

/-- Arguments of different dimension are rejected. -/
theorem C10_rejects (src dst : Tensor) (srcOff dstOff : List Int)
    (h : srcOff.length ≠ src.shape.length ∨ src.shape.length ≠ dst.shape.length ∨ dstOff.length ≠ dst.shape.length) :
    Throws (copyIntersectionAsync (α := α) src srcOff dst dstOff) := by
  refine throws_step fun h1 => throws_step fun h2 => throws_pos ?_
  simp only [Tensor.ndim] at *
  omega

/-- If no element of `src` is at the place of an element of `dst`, nothing is changed at all (the memory is left as it is). -/
theorem C10_empty (src dst : Tensor) (srcOff dstOff : List Int) (s : Store α)
    (hs : src.WF) (hd : dst.WF) (hid : src.id ≠ dst.id)
    (hl1 : srcOff.length = src.shape.length) (hl2 : src.shape.length = dst.shape.length) (hl3 : dstOff.length = dst.shape.length)
    (has : src.Alloc s) (had : dst.Alloc s) (hdef : src.Defined s)
    (hemp : ∀ I J, InBox dst.shape I → InBox src.shape J → ¬ SamePlace srcOff J dstOff I) :
    ∃ tasks s', copyIntersectionAsync src srcOff dst dstOff = .ok tasks ∧ runAll1 tasks s = .ok s' ∧
      (∀ I, InBox dst.shape I → dst.get s' I = dst.get s I) ∧ OnlyChanged [dst.id] s s' := by
  obtain ⟨t, s', a, b, c, d, -⟩ := copyIntersectionAsync_spec hs hd hid hl1 hl2 hl3 has had hdef
  exact ⟨t, s', a, b, fun I hI => (c I hI).2 (fun J hJ => hemp I J hI hJ), d⟩

/-- Tile-level `copy_intersection`. -/
theorem C10_tile (src dst : Handle) (S D : List Nat) (srcOff dstOff : List Int) (scratch : List Nat) (s : Store α)
    (hS : Pos S) (hD : Pos D) (hne : src ≠ dst) (hl1 : S.length = srcOff.length) (hl2 : S.length = D.length) (hl3 : D.length = dstOff.length)
    (hsc : scratch.length = 1) (hsc2 : 2 * S.length ≤ scratch.headD 0)
    (hsz : (s src).size = S.prod) (hdz : (s dst).size = D.prod) (hdef : ∀ J, InBox S J → ∃ v, (s src).data (lin S J) = some v) :
    ∃ tasks s', copyIntersectionTile src S srcOff dst D dstOff scratch = .ok tasks ∧ runAll1 tasks s = .ok s' ∧
      (∀ h, h ≠ dst → s' h = s h) ∧ (s' dst).size = D.prod ∧
      ∀ I, InBox D I →
        (∀ J, InBox S J → SamePlace srcOff J dstOff I → (s' dst).data (lin D I) = (s src).data (lin S J)) ∧
        ((∀ J, InBox S J → ¬ SamePlace srcOff J dstOff I) → (s' dst).data (lin D I) = (s dst).data (lin D I)) :=
  copyIntersectionTile_spec hS hD hne hl1 hl2 hl3 hsc hsc2 hsz hdz hdef

/-- Tile-level arguments of different dimension, and a scratch buffer that cannot hold two indices, are rejected. -/
theorem C10_tile_rejects (src dst : Handle) (S D : List Nat) (srcOff dstOff : List Int) (scratch : List Nat)
    (h : S.length ≠ srcOff.length ∨ S.length ≠ D.length ∨ D.length ≠ dstOff.length ∨ scratch.length ≠ 1 ∨ scratch.headD 0 < 2 * S.length) :
    Throws (copyIntersectionTile (α := α) src S srcOff dst D dstOff scratch) := by
  refine throws_step fun h1 => throws_step fun h2 => throws_step fun h3 => throws_step fun h4 => throws_pos ?_
  omega

/-- Non-vacuity: a 5x4 tensor in tiles 2x3 placed at (-1, 2) copied into a 6x5 tensor in tiles 4x2 placed at (1, 0): the hypotheses hold,
and for example element (0,2) of the destination is at the place of element (2,0) of the source. -/
example :
    let src : Tensor := ⟨0, [5, 4], [2, 3]⟩
    let dst : Tensor := ⟨1, [6, 5], [4, 2]⟩
    let s : Store Nat := fun h => if h.1 = 0 then ⟨(src.tshapeL h.2).prod, fun k => some k⟩ else Buf.undef (dst.tshapeL h.2).prod
    src.WF ∧ dst.WF ∧ src.Alloc s ∧ dst.Alloc s ∧ src.Defined s ∧ SamePlace [-1, 2] [2, 0] [1, 0] [0, 2] := by
  refine ⟨by decide, by decide, ?_, ?_, ?_, by simp [SamePlace]⟩
  · intro i _; rfl
  · intro i _; rfl
  · intro I _; exact ⟨_, rfl⟩

end NNTile
