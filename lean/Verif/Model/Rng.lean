import Verif.Model.Core
/-!
# Random generator (`external/random.h`) and the `randn` kernel (`src/kernel/randn/cpu.cc`)

`unsigned long long` is `BitVec 64` (wrap-around arithmetic matters here).
-/
namespace NNTile

/-- Generator state: `unsigned long long`. -/
abbrev Seed := BitVec 64

/-- `#define Rnd64_A`, `external/random.h:32`. -/
def rndA : Seed := 6364136223846793005#64
/-- `#define Rnd64_C`, `external/random.h:33`. -/
def rndC : Seed := 1#64

/-- State update of `CORE_slaran` / `CORE_dlaran`, `external/random.h:65,75`: `*ran = Rnd64_A * (*ran) + Rnd64_C`. -/
def rndStep (ran : Seed) : Seed := rndA * ran + rndC

/-- Loop of `CORE_rnd64_jump`, `external/random.h:49-55`: `for (; n; n >>= 1)`. The first argument is fuel: 64 iterations always
suffice because `n` has 64 bits. -/
def jumpLoop : Nat → Seed → Seed → Seed → Seed → Seed
  | 0, _, _, _, ran => ran
  | fuel + 1, n, a, c, ran =>
    if n = 0#64 then ran
    else
      let ran := if n &&& 1#64 ≠ 0#64 then a * ran + c else ran
      jumpLoop fuel (n >>> 1) (a * a) (c * (a + 1#64)) ran

/-- `CORE_rnd64_jump(n, seed)`, `external/random.h:37-58`; note `n <<= 1` (two uniform draws per normal number). -/
def rndJump (n seed : Seed) : Seed := jumpLoop 64 (n <<< 1) rndA rndC seed

/-- `chameleon_randn`, `src/kernel/randn/cpu.cc:27-45`: two uniform draws (`CORE_slaran`/`CORE_dlaran`) are combined to one normal
number. The floating point conversion `(*ran) * RndF_Mul` is `uniform` and the Box-Muller formula together with `mean` and `stddev` is
`normal`: arbitrary functions here. Returns the number and the new state. -/
def chameleonRandn {α υ : Type _} (uniform : Seed → υ) (normal : υ → υ → α) (seed : Seed) : α × Seed :=
  let t1 := uniform seed
  let seed := rndStep seed
  let t2 := uniform seed
  let seed := rndStep seed
  (normal t1 t2, seed)

/-- `*data = v` for a pointer at (possibly negative) offset `p` from the beginning of the buffer. -/
def Buf.wrI {α : Type _} (b : Buf α) (p : Int) (v : α) : M (Buf α) :=
  if p < 0 then .error (.ub "write before the buffer") else b.wr p.toNat v

/-- `src/kernel/randn/cpu.cc:84-88`: `shift = start[ndim-1]; for(i = ndim-2; i >= 0; --i) shift = start[i] + shift*underlying_shape[i]`
as a recursion from the last dimension. -/
def randnShift : List Nat → List Nat → Nat
  | [], _ => 0
  | [s], _ => s
  | s :: ss, u :: us => s + randnShift ss us * u
  | s :: _, [] => s

/-- State of the kernel: generator state, output buffer, offset of the pointer `data`. -/
structure RandnSt (α : Type _) where
  seed : Seed
  buf : Buf α
  ptr : Int

/-- Column loop `for(i < nrows) { *data = chameleon_randn(seed, mean, stddev); data += stride[0]; }`,
`src/kernel/randn/cpu.cc:93-97,136-140`. -/
def randnColumn {α υ : Type _} (uniform : Seed → υ) (normal : υ → υ → α) (stride0 : Nat) (nrows : Nat) (st : RandnSt α) :
    M (RandnSt α) :=
  forN nrows (fun _ st => do
    let r := chameleonRandn uniform normal st.seed
    let buf ← st.buf.wrI st.ptr r.1
    .ok ⟨r.2, buf, st.ptr + stride0⟩) st

/-- The carry loop `while(tmp_index[k] == shape[k])`, `src/kernel/randn/cpu.cc:118-131`. All lists start at dimension `k`.
Returns the updated `tmp_index[k..]`, `shift` and the pointer offset. Leaving the last dimension would access
`tmp_index[ndim]`. -/
def randnCarry : List Nat → List Nat → List Nat → List Nat → Int → Int → Int → M (List Nat × Int × Int)
  | t :: t1 :: ts, s :: ss, u :: us, d :: d1 :: ds, shift, ustride, ptr =>
    if t = s then do
      let r ← randnCarry ((t1 + 1) :: ts) ss us (d1 :: ds)
        (shift + ustride * ((u : Int) - (s : Int))) (ustride * u) (ptr + ((d1 : Int) - (d : Int) * (s : Int)))
      .ok (0 :: r.1, r.2.1, r.2.2)
    else .ok (t :: t1 :: ts, shift, ptr)
  | [t], s :: _, _, _, shift, _, ptr =>
    if t = s then .error (.ub "tmp_index[ndim]") else .ok ([t], shift, ptr)
  | _, _, _, _, _, _, _ => .error (.ub "tmp_index[ndim]")

/-- Body of the loop over columns `for(j = 1; j < ncols; ++j)`, `src/kernel/randn/cpu.cc:104-141`. -/
def randnBody {α υ : Type _} (uniform : Seed → υ) (normal : υ → υ → α) (nrows u0 d0 : Nat) (srest urest drest : List Nat)
    (p : RandnSt α × List Nat) : M (RandnSt α × List Nat) :=
  match p.2, drest with
  | t :: ts, d1 :: _ => do
    let r ← randnCarry ((t + 1) :: ts) srest urest drest ((u0 : Int) - (nrows : Int)) u0
      (p.1.ptr + ((d1 : Int) - (d0 : Int) * (nrows : Int)))
    let seed := rndJump (BitVec.ofInt 64 r.2.1) p.1.seed
    let st ← randnColumn uniform normal d0 nrows ⟨seed, p.1.buf, r.2.2⟩
    .ok (st, r.1)
  | _, _ => .error (.ub "tmp_index[1]")

/-- `kernel::randn::cpu`, `src/kernel/randn/cpu.cc:47-142`, for `ndim ≥ 1` (`start`, `shape`, `underlying_shape`, `stride` have
`ndim` entries). `tmp_index[0]` is never used by the code and is not modelled. -/
def randnKernel {α υ : Type _} (uniform : Seed → υ) (normal : υ → υ → α) (nelems : Nat) (seed : Seed)
    (start shape ushape stride : List Nat) (data : Buf α) : M (Buf α) :=
  match shape, ushape, stride with
  | nrows :: srest, u0 :: urest, d0 :: drest => do
    let seed := rndJump (BitVec.ofNat 64 (randnShift start ushape)) seed
    if nrows = 0 then .error (.ub "division by zero") else
    let ncols := nelems / nrows
    let st ← randnColumn uniform normal d0 nrows ⟨seed, data, 0⟩
    let st ← forN (ncols - 1) (fun _ p => randnBody uniform normal nrows u0 d0 srest urest drest p)
      (st, srest.map (fun _ => 0))
    .ok st.1.buf
  | _, _, _ => .error (.ub "start[-1]")

/-- `kernel::randn::cpu_ndim0`, `src/kernel/randn/cpu.cc:159-165`. -/
def randnKernel0 {α υ : Type _} (uniform : Seed → υ) (normal : υ → υ → α) (seed : Seed) (data : Buf α) : M (Buf α) :=
  data.wr 0 (chameleonRandn uniform normal seed).1

end NNTile
