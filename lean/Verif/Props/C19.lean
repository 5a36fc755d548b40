import Verif.Lib.ReduxMse
import Verif.Props.C11
import Verif.Lib.Seq
import Verif.Lib.Store
/-!
# C19 — `maxsumexp`

Data are numbers or the mask `-inf` (`XReal.NumOrMask`), arithmetic is exact on numbers and follows IEEE on infinities (`Verif/Spec/XReal.lean`).
`IsMaxSumExp n r mx sm` (`Verif/Spec/Mse.lean`): `mx` is the maximum of the numbers among `r 0, ..., r (n-1)` and `sm` the sum of `exp(r l - mx)` over them;
both are zero if all entries are masked.
-/
namespace NNTile
open Finset

/-- `maxsumexp` into a cleared tensor, any tiling, sequential execution (hence, by `C26`, any schedule of the tasks). -/
theorem C19_maxsumexp {src dst : Tensor} {a : Nat} {s : Store XReal} (hs : src.Ready s) (hd : dst.Ready s) (hid : src.id ≠ dst.id)
    (h : dst.MseOf src a) (redux : Bool) (x : List Nat → XReal) (hx : src.Holds s x) (hxm : ∀ I, InBox src.shape I → (x I).NumOrMask)
    (h0 : dst.Holds s (fun _ => .fin 0)) :
    ∃ v, Computes (maxsumexpAsync src dst a redux) s dst v ∧ ∀ I, InBox (src.shape.eraseIdx a) I →
      IsMaxSumExp (src.shape.getD a 0) (fun L => x (I.insertIdx a L)) (v (0 :: I)) (v (1 :: I)) := by
  refine ⟨_, maxsumexp_computes hs hd hid h redux x hx hxm (fun _ => 0) (fun _ => Mse.valid_zero) h0, ?_⟩
  intro I hI
  have := isMaxSumExp_sum (n := src.shape.getD a 0) (r := fun L => x (I.insertIdx a L)) (fun l hl => hxm _ (hI.insert h.axis hl))
  simpa using this

/-- The same for every execution in the reduction mode of the runtime: any replicas, any order, any merging. -/
theorem C19_any_execution {src dst : Tensor} {a : Nat} {s : Store XReal} (hs : src.Ready s) (hd : dst.Ready s) (hid : src.id ≠ dst.id)
    (h : dst.MseOf src a) (redux : Bool) (x : List Nat → XReal) (hx : src.Holds s x) (hxm : ∀ I, InBox src.shape I → (x I).NumOrMask)
    (h0 : dst.Holds s (fun _ => .fin 0)) :
    ∃ v, ComputesRedux reduxMse (maxsumexpAsync src dst a redux) s dst v ∧ ∀ I, InBox (src.shape.eraseIdx a) I →
      IsMaxSumExp (src.shape.getD a 0) (fun L => x (I.insertIdx a L)) (v (0 :: I)) (v (1 :: I)) := by
  refine ⟨_, maxsumexp_redux hs hd hid h redux x hx hxm (fun _ => 0) (fun _ => Mse.valid_zero) h0, ?_⟩
  intro I hI
  have := isMaxSumExp_sum (n := src.shape.getD a 0) (r := fun L => x (I.insertIdx a L)) (fun l hl => hxm _ (hI.insert h.axis hl))
  simpa using this

/-- The way it is used: `clear` and then `maxsumexp`, starting from arbitrary (also uninitialised) contents of `dst`. -/
theorem C19_clear_maxsumexp {src dst : Tensor} {a : Nat} {s : Store XReal} (hs : src.Ready s) (hd : dst.Ready s) (hid : src.id ≠ dst.id)
    (h : dst.MseOf src a) (redux : Bool) (x : List Nat → XReal) (hx : src.Holds s x) (hxm : ∀ I, InBox src.shape I → (x I).NumOrMask) :
    ∃ ts1 ts2 s', clearAsync dst = .ok ts1 ∧ maxsumexpAsync src dst a redux = .ok ts2 ∧ runAll1 (ts1 ++ ts2) s = .ok s' ∧ OnlyChanged [dst.id] s s' ∧
      ∃ v, dst.Holds s' v ∧ ∀ I, InBox (src.shape.eraseIdx a) I →
        IsMaxSumExp (src.shape.getD a 0) (fun L => x (I.insertIdx a L)) (v (0 :: I)) (v (1 :: I)) := by
  obtain ⟨ts1, s1, e1, e2, e3, e4, e5⟩ := C11_clear hd
  have hs1 : src.Ready s1 := e4.ready hs (by simpa using hid)
  obtain ⟨v, ⟨ts2, s2, f1, f2, f3, f4, f5⟩, hv⟩ := C19_maxsumexp hs1 e5 hid h redux x (e4.holds hx (by simpa using hid)) hxm e3
  exact ⟨ts1, ts2, s2, e1, f1, by rw [runAll1_append, e2, M.bind_ok, f2], (e4.trans f4).mono (by simp), v, f3, hv⟩

/-- Everything else is rejected: `maxsumexp` accepts exactly the pairs of tensors that fit. -/
theorem C19_rejects {α : Type} [FP α] {src dst : Tensor} (hs : src.WF) (hd : dst.WF) (axis : Int) (redux : Bool)
    (h : ¬ ∃ a : Nat, axis = a ∧ dst.MseOf src a) : Throws (maxsumexpAsync (α := α) src dst axis redux) := by
  simp only [maxsumexpAsync]
  refine throws_step fun h1 => throws_step fun h2 => throws_step fun h3 => throws_step fun h4 => ?_
  simp only [ne_eq, not_not] at h1
  have hl : 0 < dst.shape.length := by simp only [Tensor.ndim] at h1 h2; omega
  rw [vget_ok hl, M.bind_ok]
  refine throws_step fun h5 => ?_
  rw [vget_ok (by rw [hd.2.2]; exact hl), M.bind_ok]
  refine throws_step fun h6 => ?_
  simp only [ne_eq, not_not] at h5 h6
  refine (checkMse_check hs hd (a := axis.toNat) (by omega) h1 h5 h6).throws ?_
  intro h7
  exact h ⟨axis.toNat, by omega, h7⟩

/-- `IsMaxSumExp` determines its values: whenever some entry is a number, `mx` is the greatest one and `sm` is at least one. -/
theorem C19_meaning {n : Nat} {r : Nat → XReal} {mx sm : XReal} (h : IsMaxSumExp n r mx sm) {l : Nat} {b : ℝ} (hl : l < n) (hb : r l = .fin b) :
    ∃ m S : ℝ, mx = .fin m ∧ sm = .fin S ∧ b ≤ m ∧ 1 ≤ S ∧ S * Real.exp m = ∑ l ∈ range n, expWeight 0 (r l) := by
  rcases h with ⟨h1, -⟩ | ⟨m, h1, ⟨l', hl', h2⟩, h3, h4⟩
  · rw [h1 l hl] at hb; simp at hb
  · refine ⟨m, _, h1, h4, h3 l b hl hb, ?_, ?_⟩
    · have : expWeight m (r l') ≤ ∑ l ∈ range n, expWeight m (r l) := by
        refine single_le_sum (f := fun l => expWeight m (r l)) (fun i _ => ?_) (mem_range.2 hl')
        show 0 ≤ expWeight m (r i)
        cases r i <;> simp [expWeight, Real.exp_nonneg]
      rw [h2] at this
      simpa [expWeight] using this
    · rw [sum_mul]
      refine sum_congr rfl (fun i _ => ?_)
      have := Mse.expWeight_shift m 0 (r i)
      simpa using this

/-- A `5×7×4` tensor of numbers and masks cut into `2×3×4` tiles, with its tensor of pairs along axis 1. -/
example : ∃ (src dst : Tensor) (s : Store XReal) (x : List Nat → XReal), src.ntiles = 9 ∧ src.Ready s ∧ dst.Ready s ∧ src.id ≠ dst.id ∧
    dst.MseOf src 1 ∧ src.Holds s x ∧ (∀ I, InBox src.shape I → (x I).NumOrMask) ∧ dst.Holds s (fun _ => .fin 0) ∧ (∃ I, InBox src.shape I ∧ x I = .ninf) := by
  obtain ⟨s, h1, h2⟩ := exists_store2 (A := ⟨0, [5,7,4], [2,3,4]⟩) (B := ⟨1, [2,5,4], [2,2,4]⟩)
    (fun I => if I.headD 0 = 0 then .ninf else XReal.fin (lin [5,7,4] I : ℝ)) (fun _ => XReal.fin 0) (by decide) (by decide) (by decide)
  refine ⟨_, _, s, _, by decide, h1.1, h2.1, by decide, ⟨by decide, by decide, by decide⟩, h1.2, ?_, h2.2, [0,0,0], by decide, rfl⟩
  intro I _
  show XReal.NumOrMask (if I.headD 0 = 0 then .ninf else XReal.fin (lin [5,7,4] I : ℝ))
  split
  · exact Or.inl rfl
  · exact Or.inr ⟨_, rfl⟩

end NNTile
