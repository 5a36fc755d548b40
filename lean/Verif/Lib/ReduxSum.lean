import Verif.Lib.Redux
import Verif.Lib.GemmTensor
import Verif.Lib.FiberReduce
/-!
# Executions with replicas: sums
-/
namespace NNTile
open Finset

theorem list_sum_range {G : Type} [AddCommMonoid G] (f : Nat → G) (n : Nat) : ((List.range n).map f).sum = ∑ i ∈ range n, f i := by
  induction n with
  | zero => simp
  | succ n ih => rw [List.range_succ, List.map_append, List.sum_append, ih, sum_range_succ]; simp

/-- A buffer of `N` numbers. -/
def SumRep (N : Nat) (b : Buf ℝ) (g : Nat → ℝ) : Prop := b.size = N ∧ ∀ j, j < N → b.data j = some (g j)

theorem reduxAdd_sound (N : Nat) : (reduxAdd : ReduxCl ℝ).Sound (SumRep N) N where
  size h := h.1
  init := ⟨_, rfl, rfl, fun j hj => by simp [Buf.undef, hj]⟩
  merge := by
    rintro b g c k ⟨h1, h2⟩ ⟨h3, h4⟩
    have := forN_put (n := b.size) (b := b) (f := fun i dst => do
      let x ← c.rd i
      let y ← dst.rd i
      dst.wr i (1 * x + 1 * y)) (fun i => g i + k i) (by
        intro i hi d hd he
        rw [Buf.rd_ok (by omega) (h4 i (by omega)), M.bind_ok, Buf.rd_ok (by omega) (he.trans (h2 i (by omega))), M.bind_ok, Buf.wr_put (by omega)]
        congr 2
        ring)
    refine ⟨_, this, h1, fun j hj => ?_⟩
    simp only [h1, hj, if_true]
    rfl

/-- Task `t` replaces the contents `Y` by `be * Y + W`; the contents are not needed if `be = 0`. -/
def Affine (N : Nat) (s : Store ℝ) (t : Task1 ℝ) (be : ℝ) (W : Nat → ℝ) : Prop :=
  ∀ (c : Buf ℝ) (Y : Nat → ℝ), c.size = N → (be ≠ 0 → ∀ k, k < N → c.data k = some (Y k)) →
    ∃ b', t.fn (t.reads.map s) c = .ok b' ∧ SumRep N b' (fun k => be * Y k + W k)

theorem Affine.addsTo {N : Nat} {s : Store ℝ} {t : Task1 ℝ} {W : Nat → ℝ} (h : Affine N s t 1 W) : AddsTo (SumRep N) s t W := by
  rintro b g ⟨h1, h2⟩
  obtain ⟨b', e, e1, e2⟩ := h b g h1 (fun _ => h2)
  exact ⟨b', e, e1, fun j hj => by rw [e2 j hj]; simp⟩

theorem reduceMode_ne_W {be : ℝ} (h : be ≠ 0) (r : Bool) : reduceMode be r ≠ .W := by
  unfold reduceMode
  have hz : FP.eqb be 0 = false := by simpa using h
  simp only [hz, Bool.false_eq_true, if_false]
  split
  · cases r <;> simp
  · simp

theorem reduceMode_zero (r : Bool) : reduceMode (0 : ℝ) r = .W := by
  simp [reduceMode]

theorem reduceMode_REDUX {be : ℝ} {r : Bool} (h : reduceMode be r = .REDUX) : be = 1 := by
  unfold reduceMode at h
  split at h
  · cases h
  · split at h
    · next h1 => simpa using h1
    · cases h

theorem SumRep.det {N : Nat} {g : Nat → ℝ} {c c' : Buf ℝ} (h : SumRep N c g) (h' : SumRep N c' g) {j : Nat} (hj : j < N) : c.data j = c'.data j := by
  rw [h.2 j hj, h'.2 j hj]

/-- A sequence of tasks, the first of which multiplies the old contents by `beta`. -/
theorem reduces_sums {N : Nat} {s : Store ℝ} {t0 : Task1 ℝ} {ts : List (Task1 ℝ)} {beta : ℝ} {r r' : Bool}
    (hm0 : t0.mode = reduceMode beta r) (h0 : ∃ W, Affine N s t0 beta W) (hm : ∀ t ∈ ts, t.mode = reduceMode (1 : ℝ) r')
    (h : ∀ t ∈ ts, ∃ W, Affine N s t 1 W) {b : Buf ℝ} (hb : b.size = N)
    (hy : beta ≠ 0 → ∀ k, k < N → ∃ y, b.data k = some y) : Reduces reduxAdd s N b (t0 :: ts) := by
  obtain ⟨W0, h0⟩ := h0
  choose! w hw using h
  obtain ⟨y, hy⟩ : ∃ y : Nat → ℝ, beta ≠ 0 → ∀ k, k < N → b.data k = some (y k) := by
    by_cases hb0 : beta = 0
    · exact ⟨fun _ => 0, fun h => absurd hb0 h⟩
    · have := hy hb0
      choose! y hy using this
      exact ⟨y, fun _ => hy⟩
  refine ⟨Nat → ℝ, inferInstance, SumRep N, fun k => beta * y k + W0 k, t0, ts, ts.map w, rfl, reduxAdd_sound N,
    fun t ht => by rw [hm t ht]; exact reduceMode_ne_W one_ne_zero _, ?_, ?_, fun c c' h h' j hj => h.det h' hj⟩
  · rw [List.forall₂_map_right_iff, List.forall₂_same]
    intro t ht
    exact (hw t ht).addsTo
  · by_cases hr : t0.mode = .REDUX
    · right
      rw [hm0] at hr
      obtain rfl := reduceMode_REDUX hr
      refine ⟨by rw [hm0]; exact reduceMode_ne_W one_ne_zero _, y, W0, ⟨hb, hy one_ne_zero⟩, h0.addsTo, ?_⟩
      funext k
      simp
    · left
      refine ⟨hr, ?_⟩
      have hsz : (t0.inp b).size = N := by
        unfold Task1.inp; split <;> simpa [Buf.undef] using hb
      obtain ⟨b1, e, e1⟩ := h0 (t0.inp b) y hsz (by
        intro hb' k hk
        have : t0.mode ≠ .W := by rw [hm0]; exact reduceMode_ne_W hb' _
        rw [Task1.inp, if_neg this]
        exact hy hb' k hk)
      exact ⟨b1, e, e1⟩

theorem flatMap_single_cons {τ : Type} {n : Nat} (hn : 0 < n) (f : Nat → τ) :
    (List.range n).flatMap (fun j => [f j]) = f 0 :: (List.range (n-1)).map (fun j => f (j+1)) := by
  rw [range_flatMap_first hn, ← List.map_eq_flatMap]

/-! ### The kernels -/

/-- A buffer of `N` defined elements. -/
def Buf.Full {α : Type} (b : Buf α) (N : Nat) : Prop := b.size = N ∧ ∀ j, j < N → ∃ v, b.data j = some v

theorem Buf.Full.fn {α : Type} [Inhabited α] {b : Buf α} {N : Nat} (h : b.Full N) : ∃ x : Nat → α, ∀ j, j < N → b.data j = some (x j) := by
  have := h.2
  choose! x hx using this
  exact ⟨x, hx⟩

theorem Tensor.Holds.full {α : Type} {T : Tensor} {s : Store α} {x : List Nat → α} (h : T.Holds s x) (hT : T.Ready s) {t : List Nat} (ht : InBox T.grid t) :
    (s (T.id, lin T.grid t)).Full (T.tshape t).prod := ⟨hT.2.size ht, fun _ hj => ⟨_, h.data hT.1 ht hj⟩⟩

/-- What a kernel `f beta dst` does with `dst`. -/
def AffineK (N : Nat) (f : ℝ → Buf ℝ → M (Buf ℝ)) : Prop :=
  ∃ W : Nat → ℝ, ∀ (be : ℝ) (c : Buf ℝ) (Y : Nat → ℝ), c.size = N → (be ≠ 0 → ∀ k, k < N → c.data k = some (Y k)) →
    ∃ b', f be c = .ok b' ∧ SumRep N b' (fun k => be * Y k + W k)

theorem cell2_split {m n c : Nat} (h : c < m * n) : c % m < m ∧ c / m < n ∧ c % m + m * (c / m) = c := by
  have hm : 0 < m := Nat.pos_of_ne_zero (by rintro rfl; simp at h)
  exact ⟨Nat.mod_lt _ hm, by rw [Nat.div_lt_iff_lt_mul hm, Nat.mul_comm]; exact h, Nat.mod_add_div c m⟩

theorem sumSlice_affine {m n k : Nat} {alpha : ℝ} {src : Buf ℝ} (hs : src.Full (m * (k * n))) :
    AffineK (m * n) (fun be o => sumSliceKernel m n k alpha src be o) := by
  obtain ⟨x, hx⟩ := hs.fn
  refine ⟨fun c => alpha * ∑ i0 ∈ range k, x (c % m + m * (i0 + k * (c / m))), fun be c Y hc hY => ?_⟩
  obtain ⟨b', e1, e2, e3⟩ := sumSlice_run (alpha := alpha) (beta := be) hc hs.1 hx hY
  refine ⟨b', e1, by rw [e2, hc], fun j hj => ?_⟩
  obtain ⟨h1, h2, h3⟩ := cell2_split hj
  have := e3 _ _ h1 h2
  rwa [h3] at this

theorem sumprodSlice_affine {m n k : Nat} {alpha : ℝ} {src src2 : Buf ℝ} (hs : src.Full (m * (k * n))) (hs2 : src2.Full (m * (k * n))) :
    AffineK (m * n) (fun be o => sumprodSliceKernel m n k alpha src src2 be o) := by
  obtain ⟨x, hx⟩ := hs.fn
  obtain ⟨x', hx'⟩ := hs2.fn
  refine ⟨fun c => alpha * ∑ i0 ∈ range k, x (c % m + m * (i0 + k * (c / m))) * x' (c % m + m * (i0 + k * (c / m))), fun be c Y hc hY => ?_⟩
  obtain ⟨b', e1, e2, e3⟩ := sumprodSlice_run (alpha := alpha) (beta := be) hc hs.1 hx hs2.1 hx' hY
  refine ⟨b', e1, by rw [e2, hc], fun j hj => ?_⟩
  obtain ⟨h1, h2, h3⟩ := cell2_split hj
  have := e3 _ _ h1 h2
  rwa [h3] at this

theorem sumFiber_affine {m n k bt : Nat} {alpha : ℝ} {src : Buf ℝ} (hs : src.Full (m * (k * (n * bt)))) :
    AffineK (k * bt) (fun be o => sumFiberKernel m n k bt alpha src be o) := by
  obtain ⟨x, hx⟩ := hs.fn
  refine ⟨fun c => alpha * ∑ i1 ∈ range n, ∑ i0 ∈ range m, x (cell4 m k n i0 (c % k) i1 (c / k)), fun be c Y hc hY => ?_⟩
  obtain ⟨b', e1, e2, e3⟩ := sumFiber_run (alpha := alpha) (beta := be) hc hs.1 hx hY
  refine ⟨b', e1, by rw [e2, hc], fun j hj => ?_⟩
  obtain ⟨h1, h2, h3⟩ := cell2_split hj
  have := e3 _ _ h1 h2
  rwa [h3] at this

theorem sumprodFiber_affine {m n k : Nat} {alpha : ℝ} {src src2 : Buf ℝ} (hs : src.Full (m * (k * n))) (hs2 : src2.Full (m * (k * n))) :
    AffineK k (fun be o => sumprodFiberKernel m n k alpha src src2 be o) := by
  obtain ⟨x, hx⟩ := hs.fn
  obtain ⟨x', hx'⟩ := hs2.fn
  refine ⟨fun c => alpha * ∑ i1 ∈ range n, ∑ i0 ∈ range m, x (i0 + m * (c + k * i1)) * x' (i0 + m * (c + k * i1)), fun be c Y hc hY => ?_⟩
  obtain ⟨b', e1, e2, e3⟩ := sumprodFiber_run (alpha := alpha) (beta := be) hc hs.1 hx hs2.1 hx' hY
  exact ⟨b', e1, by rw [e2, hc], fun j hj => e3 j hj⟩

theorem gemm_affine {tA tB : TransOp} {m n k bt : Nat} {alpha : ℝ} {A B : Buf ℝ} (hA : A.Full (m * (k * bt))) (hB : B.Full (k * (n * bt))) :
    AffineK (m * (n * bt)) (fun be o => gemmKernel tA tB m n k bt alpha A B be o) := by
  obtain ⟨x, hx⟩ := hA.fn
  obtain ⟨y, hy⟩ := hB.fn
  refine ⟨fun c => alpha * ∑ l ∈ range k, x (opOff tA m k (c % m) l (c / m / n)) * y (opOff tB k n l (c / m % n) (c / m / n)), fun be c Y hc hY => ?_⟩
  obtain ⟨b', e1, e2, e3⟩ := gemm_run (tA := tA) (tB := tB) (alpha := alpha) (beta := be) hc hA.1 hB.1 hx hy hY
  refine ⟨b', e1, by rw [e2, hc], fun j hj => ?_⟩
  obtain ⟨h1, h2, h3⟩ := cell2_split hj
  obtain ⟨h4, h5, h6⟩ := cell2_split h2
  have := e3 _ _ _ h1 h4 h5
  rw [h6, h3] at this
  rw [this, add_comm]

end NNTile
