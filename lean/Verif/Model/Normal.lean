import Verif.Model.Rng
import Verif.Model.FP
/-!
# Floating-point part of the random generator

`Model/Rng` treats the conversion of a generator state to a number and the Box-Muller formula as arbitrary functions. Here they are written down.
-/
namespace NNTile
variable {α : Type}

/-- The value returned by `CORE_slaran` / `CORE_dlaran`, `external/random.h:60-78`: `(*ran) * RndF_Mul`. The literal `5.4210108624275222e-20` is the
number `2^-64` both in `float` and in `double` (the nearest number of the format), which is what is written here. The state update is `rndStep`. -/
def laran [FP α] (ran : Seed) : α := FP.ofIndex (ran.toNat : Int) * FP.lit (1 / 2 ^ 64)

/-- The formula of `chameleon_randn`, `src/kernel/randn/cpu.cc:27-45`, applied to the results of the two calls of `CORE_slaran`/`CORE_dlaran`. The function
`std::cos` is a parameter. -/
def boxMuller [FP α] (cos : α → α) (mean stddev : α) (t1 u2 : α) : α :=
  let t2 := u2 * FP.lit (62831853071795864769252867663 / 10 ^ 28)
  let t3 := FP.sqrt (-(FP.lit 2) * FP.log t1) * cos t2
  stddev * t3 + mean

end NNTile
