import Verif.Lib.Normal
import Verif.Props.C07
import Verif.Spec.Layer
/-!
# C77 — random numbers are finite

"`randn` fills the tensor with finite numbers, whatever the seed." True for each odd seed; for each even seed there is exactly one position of the stream (of
the `2^63` positions of a period) whose number is `+inf`, because the uniform number is exactly zero there and the formula takes its logarithm. For the seed 0 it
is the very first one.

Arithmetic is that of the reals with infinities and NaN.
-/
namespace NNTile

/-- The generator has full period: two draws have the same state exactly when their numbers are equal modulo `2^64`, and every state occurs. -/
theorem C77_period (seed : Seed) :
    (∀ i j, drawState seed i = drawState seed j ↔ i % 2 ^ 64 = j % 2 ^ 64) ∧ ∀ x, ∃ j < 2 ^ 64, drawState seed j = x :=
  ⟨rndStep_eq_iff seed, rndStep_reach seed⟩

/-- Which number each element gets. -/
theorem C77_formula (mean stddev : ℝ) (dst : Tensor) (hd : dst.WF) (start underlying : List Int) (seed : Seed)
    (hfit : BoxFits start dst.shape underlying) (s : Store XReal) (ha : dst.Alloc s) :
    Runs (randnAsync laran (normalOf mean stddev) dst start underlying seed) s [dst.id] fun s' =>
      ∀ I, InBox dst.shape I → ∀ p, p = underlyingPos underlying start I →
        (drawState seed (2 * p) ≠ 0 →
          0 < unitOf (drawState seed (2 * p)) ∧ unitOf (drawState seed (2 * p)) < 1 ∧
          dst.get s' I = some (.fin (boxMullerSpec mean stddev (unitOf (drawState seed (2 * p))) (unitOf (drawState seed (2 * p + 1)))))) ∧
        (drawState seed (2 * p) = 0 → 0 < stddev → dst.get s' I = some .pinf) := by
  obtain ⟨tasks, s', a, b, c, d⟩ := C07_randn laran (normalOf mean stddev) dst hd start underlying seed hfit s ha
  refine ⟨tasks, s', a, b, d, ?_⟩
  rintro I hI p rfl
  refine ⟨fun h => ⟨unitOf_pos h, unitOf_lt _, ?_⟩, fun h hd => ?_⟩
  · rw [c I hI, nthNormal_fin mean stddev seed _ h]
  · rw [c I hI, nthNormal_inf mean hd seed _ h]

/-- With an odd seed all elements are finite, for every shape, tiling, box, mean and standard deviation. -/
theorem C77_odd_partial (mean stddev : ℝ) (dst : Tensor) (hd : dst.WF) (start underlying : List Int) (seed : Seed) (hseed : seed.toNat % 2 = 1)
    (hfit : BoxFits start dst.shape underlying) (s : Store XReal) (ha : dst.Alloc s) :
    Runs (randnAsync laran (normalOf mean stddev) dst start underlying seed) s [dst.id] fun s' =>
      ∀ I, InBox dst.shape I → ∃ v, dst.get s' I = some v ∧ v.IsFin := by
  obtain ⟨tasks, s', a, b, d, c⟩ := C77_formula mean stddev dst hd start underlying seed hfit s ha
  refine ⟨tasks, s', a, b, d, fun I hI => ?_⟩
  obtain ⟨c1, -⟩ := c I hI _ rfl
  have hne : drawState seed (2 * underlyingPos underlying start I) ≠ 0 := by
    intro h
    have := rndStep_parity seed (2 * underlyingPos underlying start I)
    rw [← drawState_eq, h] at this
    have e0 : (0 : Seed).toNat = 0 := rfl
    rw [e0] at this
    omega
  exact ⟨_, (c1 hne).2.2, _, rfl⟩

/-- With an even seed there is exactly one position of the period whose number is infinite; the elements at the other positions are finite. -/
theorem C77_even_partial (seed : Seed) (hseed : seed.toNat % 2 = 0) :
    ∃ p₀ < 2 ^ 63, ∀ (mean stddev : ℝ), 0 < stddev → ∀ (dst : Tensor), dst.WF → ∀ (start underlying : List Int), BoxFits start dst.shape underlying →
      ∀ s : Store XReal, dst.Alloc s →
        Runs (randnAsync laran (normalOf mean stddev) dst start underlying seed) s [dst.id] fun s' =>
          ∀ I, InBox dst.shape I →
            (underlyingPos underlying start I % 2 ^ 63 ≠ p₀ → ∃ v, dst.get s' I = some v ∧ v.IsFin) ∧
            (underlyingPos underlying start I % 2 ^ 63 = p₀ → dst.get s' I = some .pinf) := by
  obtain ⟨j, hj, e⟩ := rndStep_reach seed 0
  have hpar := rndStep_parity seed j
  have e0 : (0 : Seed).toNat = 0 := rfl
  rw [e, e0] at hpar
  have hj2 : j = 2 * (j / 2) := by omega
  refine ⟨j / 2, by omega, fun mean stddev hdev dst hd start underlying hfit s ha => ?_⟩
  obtain ⟨tasks, s', a, b, d, c⟩ := C77_formula mean stddev dst hd start underlying seed hfit s ha
  refine ⟨tasks, s', a, b, d, fun I hI => ?_⟩
  obtain ⟨c1, c2⟩ := c I hI _ rfl
  have hiff : drawState seed (2 * underlyingPos underlying start I) = 0 ↔ underlyingPos underlying start I % 2 ^ 63 = j / 2 := by
    rw [drawState_eq, ← e, rndStep_eq_iff]
    omega
  exact ⟨fun h => ⟨_, (c1 (fun q => h (hiff.1 q))).2.2, _, rfl⟩, fun h => c2 (hiff.2 h) hdev⟩

/-- Seed 0: the first element of every tensor is `+inf`. -/
theorem C77_refuted (mean stddev : ℝ) (hdev : 0 < stddev) (dst : Tensor) (hd : dst.WF) (s : Store XReal) (ha : dst.Alloc s) :
    Runs (randnAsync laran (normalOf mean stddev) dst (dst.shape.map fun _ => 0) (toInts dst.shape) 0#64) s [dst.id] fun s' =>
      dst.get s' (dst.shape.map fun _ => 0) = some .pinf := by
  have hfit : BoxFits (dst.shape.map fun _ => 0) dst.shape (toInts dst.shape) := by
    refine ⟨by simp, by simp [toInts], fun i h1 h2 h3 => ?_⟩
    simp [toInts]
  have hpos : underlyingPos (toInts dst.shape) (dst.shape.map fun _ => 0) (dst.shape.map fun _ => 0) = 0 := by
    rw [underlyingPos, map_toNat_toInts]
    induction dst.shape with
    | nil => rfl
    | cons a l ih =>
      simp only [List.map_cons, addIdx_cons, lin_cons, Int.toNat_zero, Nat.zero_add] at ih ⊢
      rw [ih]; simp
  obtain ⟨tasks, s', a, b, d, c⟩ := C77_formula mean stddev dst hd _ _ 0#64 hfit s ha
  refine ⟨tasks, s', a, b, d, ?_⟩
  have hI : InBox dst.shape (dst.shape.map fun _ => 0) := by
    have := hd.1
    revert this
    induction dst.shape with
    | nil => intro _; simp
    | cons a l ih =>
      intro h
      simp only [List.map_cons, InBox_cons]
      exact ⟨by have := h a (by simp); omega, ih fun x hx => h x (by simp [hx])⟩
  obtain ⟨-, c2⟩ := c _ hI 0 hpos.symm
  exact c2 rfl hdev

/-- The seed of `init_randn_async` is 100: its infinite number is at position 2689333721826401274, beyond the size of any tensor that fits in memory. -/
theorem C77_seed100 (p : Nat) (hp : p < 2 ^ 63) : drawState 100#64 (2 * p) = 0 ↔ p = 2689333721826401274 := by
  have h : rndStep^[2 * 2689333721826401274] 100#64 = 0 := by
    rw [← rndJump_ofNat]
    decide +kernel
  rw [drawState_eq, ← h, rndStep_eq_iff]
  omega

/-- The hypotheses are met: a box of a bigger array, with uneven tiles. -/
example : BoxFits [1, 2] [5, 4] [7, 6] ∧ (Tensor.mk 0 [5, 4] [2, 3]).WF ∧ (7#64 : Seed).toNat % 2 = 1 ∧ (100#64 : Seed).toNat % 2 = 0 :=
  ⟨boxFits_iff.2 ⟨[1, 2], [7, 6], rfl, rfl, rfl, by simp⟩, by decide, by decide, by decide⟩

end NNTile
