import Verif.Model.Copy
/-!
# `copy_intersection` (`src/tile/copy_intersection.cc`, `src/tensor/copy_intersection.cc`)

The per-dimension arrays of the code (`src_start[i]`, `dst_start[i]`, ...) are a list of records, one per dimension. Values that the
code keeps in signed `Index` are computed in `Int` and stored as `Nat` (`toNat`): they are non-negative when the code reaches that point.
-/
namespace NNTile
variable {α : Type}

/-- One dimension of the tensor-wise copy: shapes and basetiles of source and destination and `src_start[i]`, `dst_start[i]`,
`copy_shape[i]`. -/
structure CIDim where
  sN : Nat
  sb : Nat
  dN : Nat
  db : Nat
  ss : Nat
  ds : Nat
  c : Nat

/-- Intersection in one dimension, `src/tensor/copy_intersection.cc:121-142` and `src/tile/copy_intersection.cc:92-113` (the same code):
`none` if the ranges do not intersect, otherwise `src_start[i]`, `dst_start[i]`, `copy_shape[i]`. -/
def ciStart (so : Int) (sN : Nat) (dO : Int) (dN : Nat) : Option (Nat × Nat × Nat) :=
  if so + sN ≤ dO ∨ dO + dN ≤ so then none
  else if so < dO then
    some ((dO - so).toNat, 0, (min ((sN : Int) - (dO - so)) (dN : Int)).toNat)
  else
    some (0, (so - dO).toNat, (min ((dN : Int) - (so - dO)) (sN : Int)).toNat)

/-- Loop over dimensions, `src/tensor/copy_intersection.cc:119-147`. `none`: the function returns without doing anything. -/
def ciDims : List Int → List Nat → List Nat → List Int → List Nat → List Nat → Option (List CIDim)
  | so :: sos, sN :: sNs, sb :: sbs, dO :: dOs, dN :: dNs, db :: dbs =>
    match ciStart so sN dO dN with
    | none => none
    | some (ss, ds, c) =>
      match ciDims sos sNs sbs dOs dNs dbs with
      | none => none
      | some r => some (⟨sN, sb, dN, db, ss, ds, c⟩ :: r)
  | _, _, _, _, _, _ => some []

/-- `dst_tile_index_begin[i]`, `src/tensor/copy_intersection.cc:143`. -/
def CIDim.tb (d : CIDim) : Nat := d.ds / d.db
/-- `dst_tile_index_end[i]`, `src/tensor/copy_intersection.cc:144-145`. -/
def CIDim.te (d : CIDim) : Nat := (d.ds + d.c - 1) / d.db + 1

/-- `src_tile_index_begin[j]` for the destination tile index `t`, `src/tensor/copy_intersection.cc:171-185`. -/
def CIDim.ub (d : CIDim) (t : Nat) : Nat :=
  if t = d.tb then d.ss / d.sb
  else (((t : Int) * d.db - d.ds + d.ss) / d.sb).toNat

/-- `src_tile_index_end[j]`, `src/tensor/copy_intersection.cc:188-205`. -/
def CIDim.ue (d : CIDim) (t : Nat) : Nat :=
  if t + 1 = d.te then (d.ss + d.c - 1) / d.sb + 1
  else ((((t : Int) + 1) * d.db - 1 - d.ds + d.ss) / d.sb + 1).toNat

/-- The destination tile is only partially overwritten because of this dimension, `src/tensor/copy_intersection.cc:175-178` and
`193-198`; `tsh` is `dst_tile_traits.shape[j]`. -/
def CIDim.partialTile (d : CIDim) (t tsh : Nat) : Bool :=
  (t = d.tb ∧ t * d.db ≠ d.ds) ∨ (t + 1 = d.te ∧ t * d.db + tsh ≠ d.ds + d.c)

/-- Parameters of the first source tile in one dimension: `src_tile_start[k]`, `dst_tile_start[k]`, `copy_tile_shape[k]`,
`src/tensor/copy_intersection.cc:213-251`. -/
def CIDim.pieceFirst (d : CIDim) (t : Nat) : Nat × Nat × Nat :=
  let ub := d.ub t
  let sd : Int × Int :=
    if t = d.tb then ((d.ss : Int) - (ub : Int) * d.sb, (d.ds : Int) - (t : Int) * d.db)
    else ((d.ss : Int) - d.ds + (t : Int) * d.db - (ub : Int) * d.sb, 0)
  let c : Int :=
    if ub + 1 = d.ue t then
      if t + 1 = d.te then (d.ss : Int) + d.c - (ub : Int) * d.sb - sd.1
      else (d.db : Int) - sd.2
    else (d.sb : Int) - sd.1
  (sd.1.toNat, sd.2.toNat, c.toNat)

/-- Parameters of source tile `u` in one dimension, `src/tensor/copy_intersection.cc:311-363`. -/
def CIDim.piece (d : CIDim) (t u : Nat) : Nat × Nat × Nat :=
  let sd : Int × Int :=
    if u = d.ub t then
      if t = d.tb then ((d.ss : Int) - (u : Int) * d.sb, (d.ds : Int) - (t : Int) * d.db)
      else ((d.ss : Int) - d.ds + (t : Int) * d.db - (u : Int) * d.sb, 0)
    else (0, (d.ds : Int) - d.ss + (u : Int) * d.sb - (t : Int) * d.db)
  let c : Int :=
    if u + 1 = d.ue t then
      if t + 1 = d.te then (d.ss : Int) + d.c - (u : Int) * d.sb - sd.1
      else (d.db : Int) - sd.2
    else (d.sb : Int) - sd.1
  (sd.1.toNat, sd.2.toNat, c.toNat)

/-- Carry loop of an index running from `begin` to `end`, `src/tensor/copy_intersection.cc:301-306,394-399`. -/
def boxCarry : List Nat → List Nat → List Nat → M (List Nat)
  | i :: i1 :: is, b :: bs, e :: es =>
    if i = e then do
      let r ← boxCarry ((i1 + 1) :: is) bs es
      .ok (b :: r)
    else .ok (i :: i1 :: is)
  | [i], _ :: _, e :: _ => if i = e then .error (.ub "index[ndim]") else .ok [i]
  | _, _, _ => .error (.ub "index[ndim]")

/-- `++index[0]` and the carry loop. -/
def boxNext (b e : List Nat) (index : List Nat) : M (List Nat) :=
  match index with
  | i :: is => boxCarry ((i + 1) :: is) b e
  | [] => .error (.ub "index[0]")

/-- Number of tiles between `begin` and `end`, `src/tensor/copy_intersection.cc:146,206`. -/
def boxCount : List Nat → List Nat → Nat
  | b :: bs, e :: es => (e - b) * boxCount bs es
  | _, _ => 1

/-- `src.grid.index_to_linear(index)` followed by `get_tile_handle`, `get_tile_traits` (`src/tensor/copy_intersection.cc:152-154,254-259,366-375`):
handle and shape of a tile. -/
def tileAt (T : Tensor) (index : List Nat) : M (Handle × List Nat) := do
  let h ← T.handleAt index
  let sh ← T.tshapeAt index
  .ok (h, sh)

/-- All tasks for one destination tile, `src/tensor/copy_intersection.cc:151-383`. -/
def ciTile (src dst : Tensor) (dims : List CIDim) (tindex : List Nat) : M (List (Task1 α)) := do
  let d ← tileAt dst tindex
  let ub := List.zipWith (fun d t => d.ub t) dims tindex
  let ue := List.zipWith (fun d t => d.ue t) dims tindex
  let srcN := boxCount ub ue
  let part := ((dims.zip (tindex.zip d.2)).any (fun p => p.1.partialTile p.2.1 p.2.2))
  let mode : WMode := if part then .RW else .W
  let first := List.zipWith (fun d t => d.pieceFirst t) dims tindex
  let f ← tileAt src ub
  if srcN = 1 ∧ mode = .W ∧ first.map (·.2.2) = f.2 then .ok [submitCopy f.1 d.1]
  else do
    let t0 := submitSubcopy (first.map (·.1)) (strideFrom 1 f.2) (first.map (·.2.1)) (strideFrom 1 d.2) (first.map (·.2.2)) f.1 d.1 mode
    let rest ← odoLoop1 (boxNext ub ue)
      (fun _ uindex => do
        let piece := List.zipWith (fun (p : CIDim × Nat) u => p.1.piece p.2 u) (dims.zip tindex) uindex
        let f ← tileAt src uindex
        .ok [submitSubcopy (piece.map (·.1)) (strideFrom 1 f.2) (piece.map (·.2.1)) (strideFrom 1 d.2) (piece.map (·.2.2)) f.1 d.1 .RW])
      (srcN - 1) 1 ub
    .ok (t0 :: rest)

/-- `tensor::copy_intersection_async`, `src/tensor/copy_intersection.cc:36-401`. -/
def copyIntersectionAsync (src : Tensor) (srcOff : List Int) (dst : Tensor) (dstOff : List Int) : M (List (Task1 α)) := do
  throwIf (src.ndim ≠ srcOff.length) "src.ndim != src_offset.size()"
  throwIf (src.ndim ≠ dst.ndim) "src.ndim != dst.ndim"
  throwIf (dst.ndim ≠ dstOff.length) "dst.ndim != dst_offset.size()"
  if src.ndim = 0 then do
    let a ← src.handleL 0
    let b ← dst.handleL 0
    .ok [submitCopy a b]
  else if srcOff = dstOff ∧ src.shape = dst.shape ∧ src.basetile = dst.basetile then
    forTasks src.ntiles (fun i => do
      let a ← src.handleL i
      let b ← dst.handleL i
      .ok [submitCopy a b])
  else
    match ciDims srcOff src.shape src.basetile dstOff dst.shape dst.basetile with
    | none => .ok []
    | some dims =>
      let tb := dims.map CIDim.tb
      let te := dims.map CIDim.te
      odoLoop (boxNext tb te) (fun _ tindex => ciTile src dst dims tindex) (boxCount tb te) 0 tb

/-- Mode of the destination tile, `src/tile/copy_intersection.cc:88,115-118`: `STARPU_W` if it is fully overwritten. -/
def ciTileMode : List (Nat × Nat × Nat) → List Nat → WMode
  | p :: ps, n :: ns => if p.2.2 ≠ n then .RW else ciTileMode ps ns
  | _, _ => .W

/-- `tile::copy_intersection_async`, `src/tile/copy_intersection.cc:35-123`. Arguments: handle and shape of the source tile, its offset,
the same for the destination, shape of the scratch tile. -/
def copyIntersectionTile (src : Handle) (srcShape : List Nat) (srcOff : List Int) (dst : Handle) (dstShape : List Nat) (dstOff : List Int)
    (scratch : List Nat) : M (List (Task1 α)) := do
  throwIf (srcShape.length ≠ srcOff.length) "src.ndim != src_offset.size()"
  throwIf (srcShape.length ≠ dstShape.length) "src.ndim != dst.ndim"
  throwIf (dstShape.length ≠ dstOff.length) "dst.ndim != dst_offset.size()"
  throwIf (scratch.length ≠ 1) "scratch.ndim != 1"
  throwIf (scratch.headD 0 < 2 * srcShape.length) "scratch.shape[0] < 2*src.ndim"
  if srcShape.length = 0 then .ok [submitCopy src dst]
  else if srcOff = dstOff ∧ srcShape = dstShape then .ok [submitCopy src dst]
  else
    match ciDims srcOff srcShape srcShape dstOff dstShape dstShape with
    | none => .ok []
    | some dims =>
      let p := dims.map (fun d => (d.ss, d.ds, d.c))
      .ok [submitSubcopy (p.map (·.1)) (strideFrom 1 srcShape) (p.map (·.2.1)) (strideFrom 1 dstShape) (p.map (·.2.2)) src dst
        (ciTileMode p dstShape)]

end NNTile
