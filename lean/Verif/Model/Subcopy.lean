import Verif.Model.Rng
/-!
# `kernel::subcopy::cpu` (`src/kernel/subcopy/cpu.cc`)
-/
namespace NNTile

/-- `src[p]` for a (possibly negative) offset `p`. -/
def Buf.rdI {α : Type _} (b : Buf α) (p : Int) : M α :=
  if p < 0 then .error (.ub "read before the buffer") else b.rd p.toNat

/-- Carry loop `while(index[j] == start[j]+copy_shape[j])`, `src/kernel/subcopy/cpu.cc:85-91` and `94-100` (the same loop for the source
and for the destination). All lists start at dimension `j`. Returns the updated `index[j..]` and offset. Leaving the last dimension
would access `index[ndim]` out of bounds. -/
def subcopyCarry : List Nat → List Nat → List Nat → List Nat → Int → M (List Nat × Int)
  | i :: i1 :: is, s :: ss, c :: cs, d :: d1 :: ds, off =>
    if i = s + c then do
      let r ← subcopyCarry ((i1 + 1) :: is) ss cs (d1 :: ds) (off + ((d1 : Int) - (c : Int) * (d : Int)))
      .ok (s :: r.1, r.2)
    else .ok (i :: i1 :: is, off)
  | [i], s :: _, c :: _, _, off =>
    if i = s + c then .error (.ub "index[ndim]") else .ok ([i], off)
  | _, _, _, _, _ => .error (.ub "index[ndim]")

/-- `offset += start[i] * stride[i]` for `i = 1..ndim-1`, `cpu.cc:69-73`. -/
def offsetLoop : List Nat → List Nat → Int → Int
  | s :: ss, d :: ds, acc => offsetLoop ss ds (acc + (s : Int) * (d : Int))
  | _, _, acc => acc

/-- `++index[0]`. -/
def incHead : List Nat → List Nat
  | [] => []
  | i :: is => (i + 1) :: is

/-- Loop state of `subcopy`. -/
structure SubcopySt (α : Type _) where
  srcIdx : List Nat
  dstIdx : List Nat
  srcOff : Int
  dstOff : Int
  dst : Buf α

/-- Body of the element loop, `cpu.cc:78-107`. -/
def subcopyBody {α : Type _} (srcStart srcStride copyShape : List Nat) (src : Buf α) (dstStart dstStride : List Nat)
    (st : SubcopySt α) : M (SubcopySt α) := do
  let r ← subcopyCarry (incHead st.srcIdx) srcStart copyShape srcStride st.srcOff
  let q ← subcopyCarry (incHead st.dstIdx) dstStart copyShape dstStride st.dstOff
  let v ← src.rdI r.2
  let dst ← st.dst.wrI q.2 v
  .ok ⟨r.1, q.1, r.2 + 1, q.2 + 1, dst⟩

/-- `kernel::subcopy::cpu`, `src/kernel/subcopy/cpu.cc:25-108`, for `ndim ≥ 1` (with `ndim = 0` the code reads `src_start[0]` out of
bounds). The first element is copied before the loop (line 75). -/
def subcopyKernel {α : Type _} (srcStart srcStride copyShape : List Nat) (src : Buf α) (dstStart dstStride : List Nat)
    (dst : Buf α) : M (Buf α) :=
  match srcStart, srcStride, dstStart, dstStride with
  | s0 :: ss, _ :: sd, t0 :: ts, _ :: td => do
    let nelems := copyShape.foldl (· * ·) 1
    let srcOff := offsetLoop ss sd s0
    let dstOff := offsetLoop ts td t0
    let v ← src.rdI srcOff
    let dst ← dst.wrI dstOff v
    let st ← forN (nelems - 1) (fun _ st => subcopyBody srcStart srcStride copyShape src dstStart dstStride st)
      ⟨srcStart, dstStart, srcOff + 1, dstOff + 1, dst⟩
    .ok st.dst
  | _, _, _, _ => .error (.ub "src_start[0]")

end NNTile
