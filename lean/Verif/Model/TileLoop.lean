import Verif.Model.Task
import Verif.Model.Subcopy
/-!
# Loops over all tiles of a grid with a hand-written multi-index counter
-/
namespace NNTile

/-- `for(i = 0; i < n; ++i) { body(i, s); if(i == n-1) break; s = next(s); }` as used in `src/tensor/randn.cc:86-117`,
`src/tensor/scatter.cc:75-139`, `src/tensor/copy_intersection.cc`. The first argument is the number of remaining iterations. -/
def odoLoop {σ τ : Type _} (next : σ → M σ) (body : Nat → σ → M (List τ)) : Nat → Nat → σ → M (List τ)
  | 0, _, _ => .ok []
  | r + 1, i, s => do
    let l ← body i s
    if r = 0 then .ok l
    else do
      let s ← next s
      let l' ← odoLoop next body r (i + 1) s
      .ok (l ++ l')

/-- Carry loop `while(index[k] == grid.shape[k]) { index[k] = 0; ++k; ++index[k]; }`, `src/tensor/scatter.cc:131-138`,
`src/tensor/gather.cc:89-96`; the lists start at dimension `k`. -/
def gridCarry : List Nat → List Nat → M (List Nat)
  | i :: i1 :: is, g :: gs =>
    if i = g then do
      let r ← gridCarry ((i1 + 1) :: is) gs
      .ok (0 :: r)
    else .ok (i :: i1 :: is)
  | [i], g :: _ => if i = g then .error (.ub "index[ndim]") else .ok [i]
  | _, _ => .error (.ub "index[ndim]")

/-- `++index[0]` and the carry loop. -/
def gridNext (grid : List Nat) (index : List Nat) : M (List Nat) :=
  match index with
  | i :: is => gridCarry ((i + 1) :: is) grid
  | [] => .error (.ub "index[0]")

/-- Componentwise product: start of the tile, `start[k] = index[k]*basetile[k]`, `src/tensor/scatter.cc:85-88`. -/
def mulIdx : List Nat → List Nat → List Nat
  | a :: as, b :: bs => (a * b) :: mulIdx as bs
  | _, _ => []

end NNTile
