import Verif.Model.Elementwise
/-!
# Helpers for functions with an `axis` argument

`Index axis` is an `Int`; after the check `axis < 0` the model uses `axis.toNat`.
-/
namespace NNTile

/-- `v[i]` of a `std::vector<Index>`: undefined behaviour out of bounds. -/
def vget (l : List Nat) (i : Nat) : M Nat :=
  match l[i]? with
  | some x => .ok x
  | none => .error (.ub "vector access out of bounds")

/-- `v[i], ..., v[i+n-1]`, read one by one in a loop. -/
def vslice (l : List Nat) (i n : Nat) : M (List Nat) :=
  if i + n ≤ l.length then .ok ((l.drop i).take n) else .error (.ub "vector access out of bounds")

/-- `if(A.shape[i] != B.shape[j]) throw ...; if(A.basetile_shape[i] != B.basetile_shape[j]) throw ...;`, the body of the loops
`src/tensor/add_slice.cc:52-75`, `src/tensor/sum_slice.cc:51-66`, `src/tensor/add_fiber.cc:52-73` and others. -/
def checkPair (A B : Tensor) (i j : Nat) : M Unit := do
  let a ← vget A.shape i
  let b ← vget B.shape j
  throwIf (a ≠ b) "A.shape[i] != B.shape[j]"
  let a ← vget A.basetile i
  let b ← vget B.basetile j
  throwIf (a ≠ b) "A.basetile_shape[i] != B.basetile_shape[j]"

/-- `for(Index i = 0; i < n; ++i) { checks }`. -/
def forCheck (n : Nat) (f : Nat → M Unit) : M Unit := forN n (fun i _ => f i) ()

/-- `for(i = 0; i < axis; ++i)` compare dimension `i` of `A` and `B`; `for(i = axis+1; i < A.ndim; ++i)` compare dimension `i` of `A` with
dimension `i-1` of `B`: `src/tensor/add_slice.cc:52-75`, `src/tensor/norm_slice.cc:48-71`; the single loop with two counters of
`src/tensor/sum_slice.cc:51-66` does the same comparisons in the same order. -/
def checkErase (A B : Tensor) (axis : Nat) : M Unit := do
  forCheck axis (fun i => checkPair A B i i)
  forCheck (A.ndim - (axis + 1)) (fun i => checkPair A B (axis + 1 + i) (axis + i))

/-- `traits.stride[axis]` of a tile of shape `S` (`C02_metadata`). -/
def mOf (S : List Nat) (axis : Nat) : Nat := (S.take axis).prod
/-- `traits.matrix_shape[axis+1][1]` of a tile of shape `S` (`C02_metadata`). -/
def nOf (S : List Nat) (axis : Nat) : Nat := (S.drop (axis + 1)).prod
/-- `traits.shape[axis]`. -/
def kOf (S : List Nat) (axis : Nat) : Nat := S.getD axis 0

end NNTile
