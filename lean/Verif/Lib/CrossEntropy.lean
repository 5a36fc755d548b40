import Verif.Model.CrossEntropy
import Verif.Spec.CrossEntropy
import Verif.Lib.ReduxSum
import Verif.Lib.Slice
/-! `total_sum_accum`, `subtract_indexed_outputs`. -/
namespace NNTile
open Finset
variable {α : Type}

theorem labelOff_ok {n i : Nat} {label : Int} (h : 0 ≤ label) : labelOff n label i = .ok (label.toNat + n * i) := by
  have : (0:Int) ≤ i * n := by positivity
  rw [labelOff, if_neg (by omega)]
  congr 1
  obtain ⟨l, rfl⟩ := Int.eq_ofNat_of_zero_le h
  rw [Nat.mul_comm]
  exact_mod_cast Int.toNat_natCast (l + i * n)

namespace LabelFit
variable {labels x : Tensor} {n : Nat} (h : LabelFit labels x n) (hx : x.WF)
include h hx

theorem pos : 0 < n := hx.1 n (by rw [h.shape]; simp)

theorem grid : x.grid = 1 :: labels.grid := by
  have := h.pos hx
  rw [Tensor.grid, h.shape, h.basetile]
  simp [gridOf, Nat.div_eq_of_lt (show n - 1 < n by omega), Tensor.grid]

theorem ntiles : x.ntiles = labels.ntiles := by
  simp [Tensor.ntiles, h.grid hx]

theorem tindex (i : Nat) : x.tindex i = 0 :: labels.tindex i := by
  rw [Tensor.tindex, h.grid hx]
  simp [unlin, Tensor.tindex, Nat.mod_one]

theorem tshape (t : List Nat) : x.tshape (0 :: t) = n :: labels.tshape t := by
  rw [Tensor.tshape, h.shape, h.basetile]
  simp [tileShape, Tensor.tshape]

theorem lin_tile (t : List Nat) : lin x.grid (0 :: t) = lin labels.grid t := by
  rw [h.grid hx]; simp [lin]

theorem inBox {t : List Nat} (ht : InBox labels.grid t) : InBox x.grid (0 :: t) := by
  rw [h.grid hx]; exact ⟨by omega, ht⟩

theorem tile_eq {t : List Nat} (ht : InBox x.grid t) : ∃ u, t = 0 :: u ∧ InBox labels.grid u := by
  rw [h.grid hx] at ht
  cases t with
  | nil => exact absurd ht (by simp [InBox])
  | cons a u =>
    obtain ⟨h1, h2⟩ := ht
    have : a = 0 := by omega
    subst this
    exact ⟨u, rfl, h2⟩

theorem glob (t : List Nat) (c : Nat) (l : List Nat) : globIdx x.basetile (0 :: t) (c :: l) = c :: globIdx labels.basetile t l := by
  rw [h.basetile]; simp [globIdx]

end LabelFit

theorem subtractIndexed_run [FP α] {asIdx : α → Int} {n m : Nat} {val : α} {labels o : Buf α} {w : Nat → α} {x : Nat → α} (ho : o.size = n * m)
    (hx : ∀ j, j < n * m → o.data j = some (x j)) (hl : labels.size = m) (hw : ∀ j, j < m → labels.data j = some (w j))
    (hok : ∀ j, j < m → 0 ≤ asIdx (w j) ∧ asIdx (w j) < n) :
    ∃ b', subtractIndexedKernel asIdx n m val labels o = .ok b' ∧ b'.size = o.size ∧
      ∀ c i, c < n → i < m → b'.data (c + n * i) = some (if asIdx (w i) = c then x (c + n * i) - val else x (c + n * i)) := by
  have key := Puts.forN (o := o) (n := m) (f := fun i dst => do
    let label ← labels.rd i
    let o ← labelOff n (asIdx label) i
    let x ← dst.rd o
    dst.wr o (x - val)) (P := fun i c => c = (asIdx (w i)).toNat + n * i) (v := fun c => x c - val) (by
      intro i hi
      obtain ⟨t1, t2⟩ := hok i hi
      have hc := cell2_lt (show (asIdx (w i)).toNat < n by omega) hi
      apply Puts.step (by omega)
      intro d hd he
      rw [Buf.rd_ok (by omega) (hw i hi), M.bind_ok, labelOff_ok t1, M.bind_ok, Buf.rd_ok hd (he.trans (hx _ hc)), M.bind_ok, Buf.wr_put hd])
    (by
      rintro i j hij hj c rfl h'
      have := (cell2_inj (by have := hok i (by omega); omega) (by have := hok j hj; omega) h').2
      omega)
  obtain ⟨b', e1, e2, e3, e4⟩ := key.run
  refine ⟨b', e1, e2, fun c i hc hi => ?_⟩
  by_cases hlab : asIdx (w i) = c
  · rw [if_pos hlab, e3 _ ⟨i, hi, by rw [hlab]; rfl⟩]
  · rw [if_neg hlab, e4, hx _ (cell2_lt hc hi)]
    rintro ⟨j, hj, h'⟩
    have hb := hok j hj
    obtain ⟨q1, rfl⟩ := cell2_inj hc (by omega) h'
    omega

theorem totalSumAccum_run {asIdx : ℝ → Int} {n m : Nat} {alpha : ℝ} {lse src labels o : Buf ℝ} {w x e : Nat → ℝ} {y : ℝ} (ho : o.size = 1)
    (hy : o.data 0 = some y) (hs : src.size = n * m)
    (hx : ∀ j, j < n * m → src.data j = some (x j)) (hl : labels.size = m) (hw : ∀ j, j < m → labels.data j = some (w j))
    (hls : lse.size = m) (he : ∀ j, j < m → lse.data j = some (e j))
    (hok : ∀ j, j < m → 0 ≤ asIdx (w j) ∧ asIdx (w j) < n) :
    totalSumAccumKernel asIdx alpha n m lse src labels o = .ok (o.put 0 (y + alpha * ∑ i ∈ range m, (e i - x ((asIdx (w i)).toNat + n * i)))) := by
  have key := forN_eq (n := m) (s := ((0:ℝ), (0:ℝ))) (f := fun i p => do
    let x ← lse.rd i
    let p := kahan x p
    let label ← labels.rd i
    let o ← labelOff n (asIdx label) i
    let y ← src.rd o
    (.ok (kahan (- y) p) : M (ℝ × ℝ))) (fun N => (∑ i ∈ range N, (e i - x ((asIdx (w i)).toNat + n * i)), 0)) (by simp) (by
      intro i hi
      obtain ⟨t1, t2⟩ := hok i hi
      have hc := cell2_lt (show (asIdx (w i)).toNat < n by omega) hi
      rw [Buf.rd_ok (by omega) (he i hi), M.bind_ok]
      simp only
      rw [Buf.rd_ok (by omega) (hw i hi), M.bind_ok, labelOff_ok t1, M.bind_ok, Buf.rd_ok (by omega) (hx _ hc), M.bind_ok, kahan_real, kahan_real,
        sum_range_succ]
      congr 2
      ring)
  unfold totalSumAccumKernel
  rw [key, M.bind_ok, Buf.rd_ok (by omega) hy, M.bind_ok, Buf.wr_put (by omega)]
  simp

end NNTile
