import Verif.Lib.Check
/-! Tensors whose dimensions are some of the dimensions of another tensor; loops over the tiles of the output. -/
namespace NNTile

/-- The entries of `l` at the positions `ps`. -/
def proj (ps l : List Nat) : List Nat := ps.map (fun p => l.getD p 0)

theorem getD_gridOf {S B : List Nat} (h : B.length = S.length) {p : Nat} (hp : p < S.length) :
    (gridOf S B).getD p 0 = (S.getD p 0 - 1) / B.getD p 0 + 1 := by
  induction S generalizing B p with
  | nil => simp at hp
  | cons s S ih => cases B with
    | nil => simp at h
    | cons b B => cases p with
      | zero => simp [gridOf]
      | succ p => simpa [gridOf] using ih (B := B) (by simpa using h) (p := p) (by simpa using hp)

theorem getD_tileShape {S B T : List Nat} (h : B.length = S.length) (h' : T.length = S.length) {p : Nat} (hp : p < S.length) :
    (tileShape S B T).getD p 0 = min (B.getD p 0) (S.getD p 0 - T.getD p 0 * B.getD p 0) := by
  induction S generalizing B T p with
  | nil => simp at hp
  | cons s S ih => cases B with
    | nil => simp at h
    | cons b B => cases T with
      | nil => simp at h'
      | cons t T => cases p with
        | zero => simp [tileShape]
        | succ p => simpa [tileShape] using ih (B := B) (T := T) (by simpa using h) (by simpa using h') (p := p) (by simpa using hp)

theorem getD_globIdx {B T L : List Nat} (h : T.length = B.length) (h' : L.length = B.length) {p : Nat} (hp : p < B.length) :
    (globIdx B T L).getD p 0 = T.getD p 0 * B.getD p 0 + L.getD p 0 := by
  induction B generalizing T L p with
  | nil => simp at hp
  | cons b B ih => cases T with
    | nil => simp at h
    | cons t T => cases L with
      | nil => simp at h'
      | cons l L => cases p with
        | zero => simp [globIdx]
        | succ p => simpa [globIdx] using ih (T := T) (L := L) (by simpa using h) (by simpa using h') (p := p) (by simpa using hp)

theorem gridOf_proj {S B ps : List Nat} (h : B.length = S.length) (hp : ∀ p ∈ ps, p < S.length) :
    gridOf (proj ps S) (proj ps B) = proj ps (gridOf S B) := by
  induction ps with
  | nil => rfl
  | cons p ps ih =>
    have := ih (fun q hq => hp q (by simp [hq]))
    simp only [proj, List.map_cons, gridOf] at this ⊢
    rw [this, getD_gridOf h (hp p (by simp))]

theorem tileShape_proj {S B T ps : List Nat} (h : B.length = S.length) (h' : T.length = S.length) (hp : ∀ p ∈ ps, p < S.length) :
    tileShape (proj ps S) (proj ps B) (proj ps T) = proj ps (tileShape S B T) := by
  induction ps with
  | nil => rfl
  | cons p ps ih =>
    have := ih (fun q hq => hp q (by simp [hq]))
    simp only [proj, List.map_cons, tileShape] at this ⊢
    rw [this, getD_tileShape h h' (hp p (by simp))]

theorem globIdx_proj {B T L ps : List Nat} (h : T.length = B.length) (h' : L.length = B.length) (hp : ∀ p ∈ ps, p < B.length) :
    globIdx (proj ps B) (proj ps T) (proj ps L) = proj ps (globIdx B T L) := by
  induction ps with
  | nil => rfl
  | cons p ps ih =>
    have := ih (fun q hq => hp q (by simp [hq]))
    simp only [proj, List.map_cons, globIdx] at this ⊢
    rw [this, getD_globIdx h h' (hp p (by simp))]

theorem InBox.proj {S I ps : List Nat} (h : InBox S I) (hp : ∀ p ∈ ps, p < S.length) : InBox (proj ps S) (proj ps I) := by
  induction ps with
  | nil => trivial
  | cons p ps ih => exact ⟨h.getD (hp p (by simp)), ih (fun q hq => hp q (by simp [hq]))⟩

theorem proj_length (ps l : List Nat) : (proj ps l).length = ps.length := by simp [proj]

/-- The dimensions of `src` are the dimensions `ps` of `dst`. -/
structure Tensor.ProjOf (src dst : Tensor) (ps : List Nat) : Prop where
  lt : ∀ p ∈ ps, p < dst.shape.length
  shape : src.shape = proj ps dst.shape
  basetile : src.basetile = proj ps dst.basetile

namespace Tensor.ProjOf
variable {src dst : Tensor} {ps : List Nat} (h : src.ProjOf dst ps) (hd : dst.WF)
include h hd

theorem wf : src.WF := by
  refine ⟨?_, ?_, by rw [h.shape, h.basetile, proj_length, proj_length]⟩
  · rw [h.shape]
    intro x hx
    simp only [proj, List.mem_map] at hx
    obtain ⟨p, hp, rfl⟩ := hx
    exact hd.1.getD (h.lt p hp)
  · rw [h.basetile]
    intro x hx
    simp only [proj, List.mem_map] at hx
    obtain ⟨p, hp, rfl⟩ := hx
    exact hd.2.1.getD (by rw [hd.2.2]; exact h.lt p hp)

theorem grid : src.grid = proj ps dst.grid := by
  rw [Tensor.grid, h.shape, h.basetile, gridOf_proj hd.2.2 h.lt]; rfl

theorem tile_inBox {t : List Nat} (ht : InBox dst.grid t) : InBox src.grid (proj ps t) := by
  rw [h.grid hd]; exact ht.proj (by rw [hd.grid_length]; exact h.lt)

theorem tshape {t : List Nat} (ht : InBox dst.grid t) : src.tshape (proj ps t) = proj ps (dst.tshape t) := by
  rw [Tensor.tshape, h.shape, h.basetile, tileShape_proj hd.2.2 (by rw [ht.length, hd.grid_length]) h.lt]; rfl

theorem glob {t l : List Nat} (ht : InBox dst.grid t) (hl : InBox (dst.tshape t) l) :
    globIdx src.basetile (proj ps t) (proj ps l) = proj ps (globIdx dst.basetile t l) := by
  rw [h.basetile, globIdx_proj (by rw [ht.length, hd.grid_length, hd.2.2]) (by rw [hl.length, hd.tshape_length ht, hd.2.2])
    (by rw [hd.2.2]; exact h.lt)]

theorem loc_inBox {t l : List Nat} (ht : InBox dst.grid t) (hl : InBox (dst.tshape t) l) : InBox (src.tshape (proj ps t)) (proj ps l) := by
  rw [h.tshape hd ht]; exact hl.proj (by rw [hd.tshape_length ht]; exact h.lt)

/-- What the tile of `src` belonging to the tile `t` of `dst` holds at the place belonging to the place `l`. -/
theorem data {α : Type} {s : Store α} {x : List Nat → α} (hx : src.Holds s x) {t l : List Nat} (ht : InBox dst.grid t)
    (hl : InBox (dst.tshape t) l) :
    (s (src.id, lin src.grid (proj ps t))).data (lin (proj ps (dst.tshape t)) (proj ps l)) = some (x (proj ps (globIdx dst.basetile t l))) := by
  rw [← h.tshape hd ht, ← (h.wf hd).get_glob (h.tile_inBox hd ht) (h.loc_inBox hd ht hl), h.glob hd ht hl]
  apply hx
  rw [← h.glob hd ht hl]
  exact ((h.wf hd).glob (h.tile_inBox hd ht) (h.loc_inBox hd ht hl)).1

theorem size {α : Type} {s : Store α} (ha : src.Alloc s) {t : List Nat} (ht : InBox dst.grid t) :
    (s (src.id, lin src.grid (proj ps t))).size = (proj ps (dst.tshape t)).prod := by
  rw [ha.size (h.tile_inBox hd ht), h.tshape hd ht]

end Tensor.ProjOf

/-- A tensor with the shape and tiling of `dst` has the same tiles. -/
theorem Tensor.Holds.same {α : Type} {src dst : Tensor} (h1 : src.shape = dst.shape) (h2 : src.basetile = dst.basetile) (hd : dst.WF)
    {s : Store α} {x : List Nat → α} (hx : src.Holds s x) {t l : List Nat} (ht : InBox dst.grid t) (hl : InBox (dst.tshape t) l) :
    (s (src.id, lin dst.grid t)).data (lin (dst.tshape t) l) = some (x (globIdx dst.basetile t l)) := by
  have hg : src.grid = dst.grid := by rw [Tensor.grid, h1, h2]; rfl
  have ht2 : src.tshape t = dst.tshape t := by rw [Tensor.tshape, h1, h2]; rfl
  have hs : src.WF := by unfold Tensor.WF; rw [h1, h2]; exact hd
  have e := hs.get_glob (t := t) (l := l) (by rw [hg]; exact ht) (by rw [ht2]; exact hl) s
  rw [hg, ht2, h2] at e
  rw [← e]
  exact hx _ (by rw [h1]; exact (hd.glob ht hl).1)

theorem Tensor.Alloc.same {α : Type} {src dst : Tensor} (h1 : src.shape = dst.shape) (h2 : src.basetile = dst.basetile)
    {s : Store α} (ha : src.Alloc s) {t : List Nat} (ht : InBox dst.grid t) : (s (src.id, lin dst.grid t)).size = (dst.tshape t).prod := by
  have hg : src.grid = dst.grid := by rw [Tensor.grid, h1, h2]; rfl
  have ht2 : src.tshape t = dst.tshape t := by rw [Tensor.tshape, h1, h2]; rfl
  have := ha.size (t := t) (by rw [hg]; exact ht)
  rwa [hg, ht2] at this

/-- A loop over the tiles of `dst` that submits, for tile `t`, the tasks `gt t`. -/
theorem computes_tiles {α : Type} {dst : Tensor} {s : Store α} (hd : dst.Ready s) {async : M (List (Task1 α))} (gt : List Nat → List (Task1 α))
    (he : async = .ok ((List.range dst.ntiles).flatMap (fun i => gt (dst.tindex i)))) (f : List Nat → α)
    (hout : ∀ t, InBox dst.grid t → ∀ u ∈ gt t, u.out = (dst.id, lin dst.grid t) ∧ ∀ r ∈ u.reads, r.1 ≠ dst.id)
    (hfold : ∀ t, InBox dst.grid t → ∃ b', foldBuf s (gt t) (s (dst.id, lin dst.grid t)) = .ok b' ∧
      b'.size = (s (dst.id, lin dst.grid t)).size ∧
      ∀ l, InBox (dst.tshape t) l → b'.data (lin (dst.tshape t) l) = some (f (globIdx dst.basetile t l))) :
    Computes async s dst f := by
  obtain ⟨s', h1, h2, h3, h4⟩ := run_tilewise (gt := fun i => gt (dst.tindex i)) hd.1 hd.2 (fun I => some (f I))
    (fun i hi t ht => by rw [(hout _ (dst.tindex_inBox i) t ht).1, Tensor.lin_tindex hi])
    (fun i hi t ht => (hout _ (dst.tindex_inBox i) t ht).2)
    (fun t ht => by simp only [Tensor.tindex_lin ht]; exact hfold t ht)
  exact ⟨_, s', he, h1, h2, h3, hd.1, h4⟩

theorem foldBuf_single {α : Type} (s : Store α) (u : Task1 α) (b : Buf α) : foldBuf s [u] b = u.fn (u.reads.map s) (u.inp b) := by
  simp only [foldBuf]
  cases u.fn (u.reads.map s) (u.inp b) <;> rfl

/-- One task per tile. -/
theorem computes_tile {α : Type} {dst : Tensor} {s : Store α} (hd : dst.Ready s) {body : Nat → M (List (Task1 α))} (task : List Nat → Task1 α)
    (he : ∀ t, InBox dst.grid t → body (lin dst.grid t) = .ok [task t]) (f : List Nat → α)
    (hout : ∀ t, InBox dst.grid t → (task t).out = (dst.id, lin dst.grid t) ∧ ∀ r ∈ (task t).reads, r.1 ≠ dst.id)
    (hfn : ∀ t, InBox dst.grid t → ∃ b', (task t).fn ((task t).reads.map s) ((task t).inp (s (dst.id, lin dst.grid t))) = .ok b' ∧
      b'.size = (s (dst.id, lin dst.grid t)).size ∧
      ∀ l, InBox (dst.tshape t) l → b'.data (lin (dst.tshape t) l) = some (f (globIdx dst.basetile t l))) :
    Computes (forTasks dst.ntiles body) s dst f := by
  apply computes_tiles hd (fun t => [task t]) ?_ f ?_ ?_
  · apply forTasks_ok
    intro i hi
    rw [← he _ (dst.tindex_inBox i), Tensor.lin_tindex hi]
  · intro t ht u hu
    simp only [List.mem_singleton] at hu
    subst hu
    exact hout t ht
  · intro t ht
    simp only [foldBuf_single]
    exact hfn t ht

end NNTile
