import Verif.Lib.Copy
/-!
# C08 — subcopy copies exactly the requested box
-/
namespace NNTile

/-- General statement: any strides with unit first stride (the only assumption of the kernel) for which the destination positions of
the box are inside of the destination buffer and pairwise different, and the source positions are defined. The call ends without
undefined behaviour, writes `src[src_start+j]` to `dst[dst_start+j]` for each `j` of the box and writes nothing else. -/
theorem C08_subcopy_strided {α : Type _} {srcStart srcStride box dstStart dstStride : List Nat} {src dst : Buf α}
    (hne : box ≠ []) (hbox : Pos box)
    (h1 : srcStart.length = box.length) (h2 : srcStride.length = box.length)
    (h3 : dstStart.length = box.length) (h4 : dstStride.length = box.length)
    (hsd : srcStride.head? = some 1) (hdd : dstStride.head? = some 1)
    (hsrc : ∀ j, InBox box j → dot srcStride (addIdx srcStart j) < src.size ∧
      ∃ v, src.data (dot srcStride (addIdx srcStart j)) = some v)
    (hdst : ∀ j, InBox box j → dot dstStride (addIdx dstStart j) < dst.size)
    (hinj : ∀ i j, InBox box i → InBox box j →
      dot dstStride (addIdx dstStart i) = dot dstStride (addIdx dstStart j) → i = j) :
    ∃ dst', subcopyKernel srcStart srcStride box src dstStart dstStride dst = .ok dst' ∧ dst'.size = dst.size ∧
      (∀ j, InBox box j → dst'.data (dot dstStride (addIdx dstStart j)) = src.data (dot srcStride (addIdx srcStart j))) ∧
      (∀ k, (∀ j, InBox box j → k ≠ dot dstStride (addIdx dstStart j)) → dst'.data k = dst.data k) :=
  subcopy_spec hne hbox h1 h2 h3 h4 hsd hdd hsrc hdst hinj

/-- For two tiles of shapes `S` and `D` with column-major strides, when the box starting at `srcStart` fits in the source tile and the
box starting at `dstStart` fits in the destination tile: every element of the box is copied, every other element of the destination
keeps its contents (also undefined contents), no access outside of the tiles happens. -/
theorem C08_subcopy_tiles {α : Type} {S D srcStart dstStart box : List Nat} {src dst : Buf α}
    (hne : box ≠ []) (hbox : Pos box) (h1 : srcStart.length = box.length) (h3 : dstStart.length = box.length)
    (hS : ∀ j, InBox box j → InBox S (addIdx srcStart j)) (hD : ∀ j, InBox box j → InBox D (addIdx dstStart j))
    (hsz : src.size = S.prod) (hdz : dst.size = D.prod)
    (hdef : ∀ j, InBox box j → ∃ v, src.data (lin S (addIdx srcStart j)) = some v) :
    ∃ dst', subcopyKernel srcStart (strideFrom 1 S) box src dstStart (strideFrom 1 D) dst = .ok dst' ∧ dst'.size = dst.size ∧
      (∀ j, InBox box j → dst'.data (lin D (addIdx dstStart j)) = src.data (lin S (addIdx srcStart j))) ∧
      (∀ I, InBox D I → (∀ j, InBox box j → I ≠ addIdx dstStart j) → dst'.data (lin D I) = dst.data (lin D I)) := 
  subcopy_tiles hne hbox h1 h3 hS hD hsz hdz hdef

/-- With zero dimensions the kernel reads `src_start[0]` outside of the array: callers must not use it for scalars. -/
theorem C08_scalar_ub {α : Type _} (src dst : Buf α) : IsUB (subcopyKernel [] [] [] src [] [] dst) := ⟨_, rfl⟩

/-- A `2×2` box at `(1,1)` of a `3×4` tile goes to `(0,2)` of a `2×4` tile. -/
example : ∃ d, subcopyKernel [1,1] (strideFrom 1 [3,4]) [2,2] (Buf.ofList [0,1,2,3,4,5,6,7,8,9,10,11]) [0,2] (strideFrom 1 [2,4])
      (Buf.undef 8) = .ok d ∧
    (List.range 8).map d.data = [none, none, none, none, some 4, some 5, some 7, some 8] := ⟨_, rfl, rfl⟩
/-- The same case meets the hypotheses of `C08_subcopy_tiles`. -/
example : ∀ j, InBox [2,2] j → InBox [3,4] (addIdx [1,1] j) ∧ InBox [2,4] (addIdx [0,2] j) := by
  intro j hj
  match j, hj with
  | [a, b], h => simp at h; simp; omega

end NNTile
