import Verif.Lib.Sim
import Verif.Lib.RealFP
import Verif.Lib.MseTensor
import Verif.Model.Maxsumexp
/-!
# `maxsumexp` over the reals

There are no masked entries, so the result over the extended reals is the image of the result over the reals.
-/
namespace NNTile
open Finset

theorem XReal.fin_injective : Function.Injective XReal.fin := fun _ _ h => by cases h; rfl

def MseAcc.map {α β : Type} (f : α → β) (p : MseAcc α) : MseAcc β := ⟨f p.max, f p.sum, f p.c⟩

theorem mseStep_fin (v : ℝ) (p : MseAcc ℝ) : mseStep (XReal.fin v) (p.map XReal.fin) = (mseStep v p).map XReal.fin := by
  unfold mseStep
  have e1 : FP.isInf (XReal.fin v) = false := rfl
  have e2 : FP.isInf v = false := rfl
  have e3 : FP.ltb (p.map XReal.fin).max (XReal.fin v) = FP.ltb p.max v := rfl
  rw [e1, e2, e3]
  simp only [Bool.false_eq_true, if_false]
  split <;> rfl

theorem mseStore_fin (off : Nat) (p : MseAcc ℝ) (d : Buf ℝ) : mseStore off (p.map XReal.fin) (d.map XReal.fin) = (mseStore off p d).map (Buf.map XReal.fin) := by
  unfold mseStore
  have e1 : FP.isInf (p.map XReal.fin).max = false := rfl
  have e2 : FP.isInf p.max = false := rfl
  rw [e1, e2]
  simp only [Bool.false_eq_true, if_false]
  rw [Buf.rd_map]
  refine bind_map _ _ _ _ _ fun a => ?_
  have e3 : FP.eqb (XReal.fin a) 0 = FP.eqb a 0 := rfl
  rw [e3]
  split
  · rw [show (p.map XReal.fin).max = XReal.fin p.max from rfl, Buf.wr_map]
    refine bind_map _ _ _ _ _ fun b => ?_
    exact Buf.wr_map _ _ _ _
  · rw [Buf.rd_map]
    refine bind_map _ _ _ _ _ fun mo => ?_
    have e4 : FP.ltb (XReal.fin mo) (p.map XReal.fin).max = FP.ltb mo p.max := rfl
    rw [e4]
    split
    · rw [show (p.map XReal.fin).max = XReal.fin p.max from rfl, Buf.wr_map]
      refine bind_map _ _ _ _ _ fun b => ?_
      refine (congrArg (· >>= _) (Buf.wr_map XReal.fin b (off + 1) (a * FP.exp (mo - p.max) + p.sum))).trans ?_
      refine bind_map _ _ _ _ _ fun b' => ?_
      exact Buf.wr_map _ _ _ _
    · refine (congrArg (· >>= _) (Buf.wr_map XReal.fin d (off + 1) (p.sum * FP.exp (p.max - mo) + a))).trans ?_
      refine bind_map _ _ _ _ _ fun b' => ?_
      exact Buf.wr_map _ _ _ _

theorem maxsumexpKernel_fin (m n k : Nat) (src dst : Buf ℝ) :
    maxsumexpKernel m n k (src.map XReal.fin) (dst.map XReal.fin) = (maxsumexpKernel m n k src dst).map (Buf.map XReal.fin) := by
  unfold maxsumexpKernel
  refine forN_map _ (fun i2 d => forN_map _ (fun i1 d => ?_) m d) n dst
  rw [Buf.rd_map]
  refine bind_map _ _ _ _ _ fun x0 => ?_
  have := forN_map (MseAcc.map XReal.fin) (f := fun i p => do
        let val ← src.rd (i2*(m*k) + i1 + (i+1)*m)
        .ok (mseStep val p)) (g := fun i p => do
        let val ← (src.map XReal.fin).rd (i2*(m*k) + i1 + (i+1)*m)
        .ok (mseStep val p)) (fun i p => by
    rw [Buf.rd_map]
    refine bind_map _ _ _ _ _ fun v => ?_
    rw [mseStep_fin]; rfl) (k - 1) ⟨x0, 1, 0⟩
  refine (congrArg (· >>= _) this).trans ?_
  refine bind_map _ _ _ _ _ fun p => ?_
  exact mseStore_fin _ _ _

theorem maxsumexpAsync_sim (src dst : Tensor) (axis : Int) (redux : Bool) :
    SimA XReal.fin (maxsumexpAsync (α := ℝ) src dst axis redux) (maxsumexpAsync (α := XReal) src dst axis redux) := by
  unfold maxsumexpAsync
  refine SimA.bind _ fun _ => SimA.bind _ fun _ => SimA.bind _ fun _ => SimA.bind _ fun _ => SimA.bind _ fun _ => SimA.bind _ fun _ => SimA.bind _ fun _ =>
    SimA.bind _ fun _ => SimA.bind _ fun _ => SimA.forTasks fun i => SimA.bind _ fun _ => SimA.bind _ fun _ => SimA.forTasks fun j => SimA.bind _ fun _ =>
    SimA.bind _ fun _ => SimA.single ?_
  exact SimT.task1 fun a b => maxsumexpKernel_fin _ _ _ a b


end NNTile
