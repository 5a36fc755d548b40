import Verif.Model.Core
/-!
# Packed task arguments

`starpu_task_insert` packs the `STARPU_VALUE` arguments of a task into one memory block, which the codelets `subcopy` and `randn` decode with
`Config::unpack_args_ptr`. Numbers are little-endian (x86-64): `int` 4 bytes, `size_t`, `Index` and `unsigned long long` 8 bytes. A pointer into the
block is an offset. Alignment is not modelled: `size_t` is read at addresses that are not multiples of 8.
-/
namespace NNTile

abbrev Bytes := List UInt8

/-- Little-endian bytes of a number. -/
def leBytes : Nat → Nat → Bytes
  | 0, _ => []
  | k + 1, n => UInt8.ofNat (n % 256) :: leBytes k (n / 256)

/-- The number with the given little-endian bytes. -/
def leVal : Bytes → Nat
  | [] => 0
  | b :: bs => b.toNat + 256 * leVal bs

/-- Two's complement. -/
def toSigned (bits n : Nat) : Int := if n < 2 ^ (bits - 1) then n else (n : Int) - 2 ^ bits

/-- Read `k` bytes at offset `p`. -/
def readBytes (buf : Bytes) (p k : Nat) : M Bytes :=
  if p + k ≤ buf.length then .ok ((buf.drop p).take k) else .error (.ub "read out of bounds")

/-- The memory block produced by StarPU (`starpu_codelet_pack_arg`, not part of the repository): number of arguments as `int`, then for each of
them its size as `size_t` and its bytes. -/
def packArgs (args : List Bytes) : Bytes := leBytes 4 args.length ++ args.flatMap (fun a => leBytes 8 a.length ++ a)

/-- `Config::unpack_args_ptr_single_arg`, `include/nntile/starpu/config.hh:137-161`. `ptrs` are the values of the pointers before the call (`none`:
uninitialised). -/
def unpackSingle (buf : Bytes) : Nat → Int → List (Option Nat) → M (List (Option Nat))
  | _, _, [] => .ok []
  | cl_args, nargs, ptr :: ptrs =>
    if nargs = 0 then .ok (ptr :: ptrs)
    else do
      let b ← readBytes buf cl_args 8
      let arg_size := leVal b
      let char_ptr := cl_args + 8
      let rest ← unpackSingle buf (char_ptr + arg_size) (nargs - 1) ptrs
      .ok (some char_ptr :: rest)

/-- `Config::unpack_args_ptr`, `include/nntile/starpu/config.hh:123-135`. -/
def unpackArgs (buf : Bytes) (ptrs : List (Option Nat)) : M (List (Option Nat)) := do
  let b ← readBytes buf 0 4
  let nargs := toSigned 32 (leVal b)
  if nargs > 0 then unpackSingle buf 4 nargs ptrs else .ok ptrs

/-! ### Typed arguments of `subcopy` and `randn` -/

/-- Memory of an `Index`. -/
def indexBytes (i : Int) : Bytes := leBytes 8 (i % 2 ^ 64).toNat

/-- `&v[0], ndim*sizeof(v[0])`: the first `ndim` elements of a vector. -/
def vecBytes (ndim : Int) (v : List Int) : M Bytes :=
  if ndim.toNat ≤ v.length then .ok ((v.take ndim.toNat).flatMap indexBytes) else .error (.ub "vector read out of bounds")

/-- Dereference a pointer to `Index`. -/
def derefIndex (buf : Bytes) (ptr : Option Nat) (i : Nat) : M Int :=
  match ptr with
  | none => .error (.ub "uninitialised pointer")
  | some p => do
    let b ← readBytes buf (p + 8 * i) 8
    .ok (toSigned 64 (leVal b))

/-- What a kernel sees when it reads `ptr[0], ..., ptr[n-1]`. -/
def derefVec (buf : Bytes) (ptr : Option Nat) : Nat → M (List Int)
  | 0 => .ok []
  | n + 1 => do
    let l ← derefVec buf ptr n
    let x ← derefIndex buf ptr n
    .ok (l ++ [x])

/-- Arguments of the kernel `subcopy`. -/
structure SubcopyArgs where
  ndim : Int
  src_start : List Int
  src_stride : List Int
  copy_shape : List Int
  dst_start : List Int
  dst_stride : List Int
  deriving DecidableEq

/-- `starpu::subcopy::submit`, `src/starpu/subcopy.cc:110-137`: the `STARPU_VALUE` arguments. -/
def subcopyPack (ndim : Int) (src_start src_stride dst_start dst_stride copy_shape : List Int) : M Bytes := do
  let b1 ← vecBytes ndim src_start
  let b2 ← vecBytes ndim src_stride
  let b3 ← vecBytes ndim copy_shape
  let b4 ← vecBytes ndim dst_start
  let b5 ← vecBytes ndim dst_stride
  .ok (packArgs [indexBytes ndim, b1, b2, b3, b4, b5])

/-- `starpu::subcopy::cpu`, `src/starpu/subcopy.cc:27-44`: the arguments passed to the kernel. -/
def subcopyUnpack (buf : Bytes) : M SubcopyArgs := do
  let ptrs ← unpackArgs buf [none, none, none, none, none, none]
  match ptrs with
  | [ndim_ptr, src_start, src_stride, copy_shape, dst_start, dst_stride] => do
    let ndim ← derefIndex buf ndim_ptr 0
    let n := ndim.toNat
    let src_start ← derefVec buf src_start n
    let src_stride ← derefVec buf src_stride n
    let copy_shape ← derefVec buf copy_shape n
    let dst_start ← derefVec buf dst_start n
    let dst_stride ← derefVec buf dst_stride n
    .ok ⟨ndim, src_start, src_stride, copy_shape, dst_start, dst_stride⟩
  | _ => .error (.ub "wrong number of pointers")

/-- Arguments of the kernel `randn`; `mean` and `stddev` are the bytes of two numbers of type `T`. -/
structure RandnArgs where
  ndim : Int
  nelems : Int
  seed : Nat
  mean : Bytes
  stddev : Bytes
  start : List Int
  shape : List Int
  stride : List Int
  underlying_shape : List Int
  deriving DecidableEq

/-- `starpu::randn::submit`, `src/starpu/randn.cc:119-162`, case `ndim > 0`. -/
def randnPack (ndim nelems : Int) (seed : Nat) (mean stddev : Bytes) (start shape stride underlying_shape : List Int) : M Bytes := do
  let b1 ← vecBytes ndim start
  let b2 ← vecBytes ndim shape
  let b3 ← vecBytes ndim stride
  let b4 ← vecBytes ndim underlying_shape
  .ok (packArgs [indexBytes ndim, indexBytes nelems, leBytes 8 seed, mean, stddev, b1, b2, b3, b4])

/-- Dereference a pointer to `unsigned long long`. -/
def derefULL (buf : Bytes) (ptr : Option Nat) : M Nat :=
  match ptr with
  | none => .error (.ub "uninitialised pointer")
  | some p => do
    let b ← readBytes buf p 8
    .ok (leVal b)

/-- Dereference a pointer to a `T` of `size` bytes. -/
def derefBytes (buf : Bytes) (ptr : Option Nat) (size : Nat) : M Bytes :=
  match ptr with
  | none => .error (.ub "uninitialised pointer")
  | some p => readBytes buf p size

/-- `starpu::randn::cpu<T>`, `src/starpu/randn.cc:26-46`; `size` is `sizeof(T)`. -/
def randnUnpack (size : Nat) (buf : Bytes) : M RandnArgs := do
  let ptrs ← unpackArgs buf [none, none, none, none, none, none, none, none, none]
  match ptrs with
  | [ndim_ptr, nelems_ptr, seed_ptr, mean_ptr, stddev_ptr, start, shape, stride, underlying_shape] => do
    let ndim ← derefIndex buf ndim_ptr 0
    let n := ndim.toNat
    let nelems ← derefIndex buf nelems_ptr 0
    let seed ← derefULL buf seed_ptr
    let mean ← derefBytes buf mean_ptr size
    let stddev ← derefBytes buf stddev_ptr size
    let start ← derefVec buf start n
    let shape ← derefVec buf shape n
    let stride ← derefVec buf stride n
    let underlying_shape ← derefVec buf underlying_shape n
    .ok ⟨ndim, nelems, seed, mean, stddev, start, shape, stride, underlying_shape⟩
  | _ => .error (.ub "wrong number of pointers")

/-- `starpu::randn::submit`, `src/starpu/randn.cc:147-156`, case `ndim = 0`. -/
def randn0Pack (seed : Nat) (mean stddev : Bytes) : Bytes := packArgs [leBytes 8 seed, mean, stddev]

/-- `starpu::randn::cpu_ndim0<T>`, `src/starpu/randn.cc:49-62`. -/
def randn0Unpack (size : Nat) (buf : Bytes) : M (Nat × Bytes × Bytes) := do
  let ptrs ← unpackArgs buf [none, none, none]
  match ptrs with
  | [seed_ptr, mean_ptr, stddev_ptr] => do
    let seed ← derefULL buf seed_ptr
    let mean ← derefBytes buf mean_ptr size
    let stddev ← derefBytes buf stddev_ptr size
    .ok (seed, mean, stddev)
  | _ => .error (.ub "wrong number of pointers")

end NNTile
