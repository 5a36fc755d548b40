/-!
# Core of the model: outcomes, memory buffers, loops

`M` is the outcome of a modelled C++ function: a value, a thrown exception, or undefined behaviour.
-/
namespace NNTile

/-- How a modelled C++ call can fail. `throw` is a C++ exception (`throw std::runtime_error(...)` all over
`/repo/include` and `/repo/src`); `ub` is undefined behaviour: an access outside of a buffer or a `std::vector`, a division of
integers by zero, or a read of memory with undefined contents. -/
inductive Err where
  | throw (msg : String)
  | ub (msg : String)
  deriving DecidableEq, Repr

/-- Outcome of a modelled function. -/
abbrev M := Except Err

/-- The call raised a C++ exception. -/
def Throws {α : Type _} (x : M α) : Prop := ∃ m, x = .error (.throw m)
/-- The call reached undefined behaviour. -/
def IsUB {α : Type _} (x : M α) : Prop := ∃ m, x = .error (.ub m)

/-- `if(bad) { throw std::runtime_error(msg); }` -/
def throwIf (bad : Prop) [Decidable bad] (msg : String) : M Unit := if bad then .error (.throw msg) else .ok ()

/-- Contents of the memory of one tile (one StarPU handle, `include/nntile/starpu/config.hh:250-330` `VariableHandle`):
`size` elements, each either a value or undefined (`none`: never written, or invalidated by a write-only access). -/
structure Buf (α : Type _) where
  size : Nat
  data : Nat → Option α

namespace Buf
variable {α : Type _}

/-- A buffer whose contents are undefined. -/
def undef (n : Nat) : Buf α := ⟨n, fun _ => none⟩

/-- A buffer holding the given list of values. -/
def ofList (l : List α) : Buf α := ⟨l.length, fun i => l[i]?⟩

/-- `b[i]` as an rvalue: undefined behaviour outside of the buffer or on undefined contents. -/
def rd (b : Buf α) (i : Nat) : M α :=
  if i < b.size then
    match b.data i with
    | some v => .ok v
    | none => .error (.ub "read of undefined memory")
  else .error (.ub "read out of bounds")

/-- `b[i] = v`: undefined behaviour outside of the buffer. -/
def wr (b : Buf α) (i : Nat) (v : α) : M (Buf α) :=
  if i < b.size then .ok ⟨b.size, fun j => if j = i then some v else b.data j⟩
  else .error (.ub "write out of bounds")

end Buf

/-- `for(Index i = 0; i < n; ++i) s = f(i, s);` -/
def forN {σ : Type _} : Nat → (Nat → σ → M σ) → σ → M σ
  | 0, _, s => .ok s
  | n+1, f, s => do
    let s ← forN n f s
    f n s

end NNTile
