import Verif.Model.TileLoop
/-!
# `tensor::randn_async` (`src/tensor/randn.cc`)
-/
namespace NNTile

/-- Checks of `start` and `underlying_shape`, `src/tensor/randn.cc:54-65`. -/
def randnCheck : List Int → List Nat → List Int → M Unit
  | st :: sts, sh :: shs, u :: us =>
    if st < 0 then .error (.throw "start[i] < 0")
    else if st + sh > u then .error (.throw "start[i]+dst.shape[i] > underlying_shape[i]")
    else randnCheck sts shs us
  | _, _, _ => .ok ()

/-- Carry loop of the tile counter, `src/tensor/randn.cc:109-116`: the lists start at dimension `j`. Arguments: `tile_index`,
`tile_start`, `start`, `basetile_shape`, `grid.shape`. -/
def randnTileCarry : List Nat → List Nat → List Nat → List Nat → List Nat → M (List Nat × List Nat)
  | i :: i1 :: is, _t :: t1 :: ts, s :: ss, _ :: b1 :: bs, g :: gs =>
    if i = g then do
      let r ← randnTileCarry ((i1 + 1) :: is) ((t1 + b1) :: ts) ss (b1 :: bs) gs
      .ok (0 :: r.1, s :: r.2)
    else .ok (i :: i1 :: is, _t :: t1 :: ts)
  | [i], [t], _, _, g :: _ => if i = g then .error (.ub "tile_index[ndim]") else .ok ([i], [t])
  | _, _, _, _, _ => .error (.ub "tile_index[ndim]")

/-- `++tile_index[0]; tile_start[0] += basetile[0];` and the carry loop, `src/tensor/randn.cc:106-116`. -/
def randnTileNext (start basetile grid : List Nat) (p : List Nat × List Nat) : M (List Nat × List Nat) :=
  match p.1, p.2, basetile with
  | i :: is, t :: ts, b :: _ => randnTileCarry ((i + 1) :: is) ((t + b) :: ts) start basetile grid
  | _, _, _ => .error (.ub "tile_index[0]")

/-- `starpu::randn::submit` for `ndim > 0`, `src/starpu/randn.cc:119-146` (mode `STARPU_W`), with the codelet `src/starpu/randn.cc:27-46`. -/
def submitRandn {α υ : Type _} (uniform : Seed → υ) (normal : υ → υ → α) (nelems : Nat) (seed : Seed)
    (start shape stride ushape : List Nat) (data : Handle) : Task1 α :=
  ⟨"randn", [], data, .W, fun _ b => randnKernel uniform normal nelems seed start shape ushape stride b⟩

/-- `starpu::randn::submit` for `ndim = 0`, `src/starpu/randn.cc:147-160` (mode `STARPU_W`). -/
def submitRandn0 {α υ : Type _} (uniform : Seed → υ) (normal : υ → υ → α) (seed : Seed) (data : Handle) : Task1 α :=
  ⟨"randn", [], data, .W, fun _ b => randnKernel0 uniform normal seed b⟩

/-- `tensor::randn_async`, `src/tensor/randn.cc:37-118`. After the checks `start` and `underlying_shape` are non-negative and are
turned into natural numbers. `mean` and `stddev` are inside of `normal`. -/
def randnAsync {α υ : Type _} (uniform : Seed → υ) (normal : υ → υ → α) (dst : Tensor) (start ushape : List Int) (seed : Seed) :
    M (List (Task1 α)) := do
  if dst.ndim ≠ start.length then throw (.throw "dst.ndim != start.size()")
  if dst.ndim ≠ ushape.length then throw (.throw "dst.ndim != underlying_shape.size()")
  randnCheck start dst.shape ushape
  if dst.ndim = 0 then do
    let h ← dst.handleL 0
    .ok [submitRandn0 uniform normal seed h]
  else
    let st := start.map Int.toNat
    let us := ushape.map Int.toNat
    odoLoop (randnTileNext st dst.basetile dst.grid)
      (fun i p => do
        let h ← dst.handleL i
        let ts := dst.tshapeL i
        .ok [submitRandn uniform normal ts.prod seed p.2 ts (strideFrom 1 ts) us h])
      dst.ntiles 0 (List.replicate dst.ndim 0, st)

end NNTile
