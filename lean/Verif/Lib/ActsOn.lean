import Verif.Lib.Core
import Mathlib.Tactic.Ring
/-! Loops that change a set of cells, each once. -/
namespace NNTile
variable {α : Type _} {N : Nat}

/-- `f` transforms every cell `k` with `P k` by `g k` and leaves the others alone. -/
def ActsOn (N : Nat) (f : Buf α → M (Buf α)) (P : Nat → Prop) (g : Nat → CellTr α) : Prop :=
  ∀ d d' : Nat → Option α, (∀ k, P k → g k (d k) = some (d' k)) → (∀ k, ¬ P k → d' k = d k) → f ⟨N, d⟩ = .ok ⟨N, d'⟩

theorem ActsOn.congr {f : Buf α → M (Buf α)} {P Q : Nat → Prop} {g h : Nat → CellTr α} (hf : ActsOn N f P g)
    (hPQ : ∀ k, P k ↔ Q k) (hgh : ∀ k, P k → ∀ c, g k c = h k c) : ActsOn N f Q h := by
  intro d d' h1 h2
  exact hf d d' (fun k hk => by rw [hgh k hk]; exact h1 k ((hPQ k).1 hk)) (fun k hk => h2 k (fun hq => hk ((hPQ k).2 hq)))

theorem ActsOn.forN {n : Nat} {f : Nat → Buf α → M (Buf α)} {P : Nat → Nat → Prop} {g : Nat → CellTr α}
    (h : ∀ i, i < n → ActsOn N (f i) (P i) g) (hdis : ∀ i j, i < j → j < n → ∀ k, P i k → ¬ P j k) :
    ActsOn N (fun b => NNTile.forN n f b) (fun k => ∃ i, i < n ∧ P i k) g := by
  induction n with
  | zero =>
    intro d d' _ h2
    have : d' = d := funext fun k => h2 k (by simp)
    simp [this]
  | succ n ih =>
    classical
    intro d d' h1 h2
    have ih' := ih (fun i hi => h i (by omega)) (fun i j hij hj => hdis i j hij (by omega))
    show NNTile.forN n f ⟨N, d⟩ >>= f n = _
    rw [show NNTile.forN n f ⟨N, d⟩ = _ from ih' d (fun k => if P n k then d k else d' k) ?_ ?_]
    · rw [M.bind_ok]
      apply h n (by omega)
      · intro k hk
        simp only [hk, if_true]
        exact h1 k ⟨n, by omega, hk⟩
      · intro k hk
        simp [hk]
    · rintro k ⟨i, hi, hk⟩
      simp only [hdis i n hi (by omega) k hk, if_false]
      exact h1 k ⟨i, by omega, hk⟩
    · intro k hk
      by_cases hn : P n k
      · simp [hn]
      · simp only [hn, if_false]
        apply h2
        rintro ⟨i, hi, hik⟩
        rcases Nat.lt_succ_iff_lt_or_eq.1 hi with h' | rfl
        · exact hk ⟨i, h', hik⟩
        · exact hn hik

/-- One cell. -/
theorem ActsOn.step {i : Nat} {f : Buf α → M (Buf α)} {g : Nat → CellTr α}
    (hf : ∀ d : Nat → Option α, ∀ c', g i (d i) = some c' → f ⟨N, d⟩ = .ok ⟨N, fun j => if j = i then c' else d j⟩) :
    ActsOn N f (fun k => k = i) g := by
  intro d d' h1 h2
  rw [hf d (d' i) (h1 i rfl)]
  congr 2
  funext k
  by_cases hk : k = i
  · subst hk; simp
  · simp [hk, h2 k hk]

/-- A computation that does not depend on the buffer comes first. -/
theorem ActsOn.pre {β : Type _} {e : M β} {x : β} {f : β → Buf α → M (Buf α)} {P : Nat → Prop} {g : Nat → CellTr α} (h : e = .ok x)
    (h' : ActsOn N (f x) P g) : ActsOn N (fun b => e >>= fun x => f x b) P g := by
  subst h; exact h'

/-- A write of a known value. -/
theorem ActsOn.wr {i : Nat} {v : α} {g : Nat → CellTr α} (hi : i < N) (hg : ∀ c, g i c = some (some v)) :
    ActsOn N (fun b => b.wr i v) (fun k => k = i) g := by
  apply ActsOn.step
  intro d c' h
  rw [hg] at h
  simp only [Option.some.injEq] at h
  subst h
  exact Buf.wr_ok v hi

/-- A read-modify-write. -/
theorem ActsOn.rmw {i : Nat} {w : α → α} {g : Nat → CellTr α} (hi : i < N) (hg : ∀ c, g i c = c.map (fun x => some (w x))) :
    ActsOn N (fun b => b.rd i >>= fun x => b.wr i (w x)) (fun k => k = i) g := by
  apply ActsOn.step
  intro d c' h
  rw [hg] at h
  cases hd : d i with
  | none => simp [hd] at h
  | some x =>
    rw [hd] at h
    simp only [Option.map_some, Option.some.injEq] at h
    subst h
    rw [Buf.rd_ok (b := ⟨N, d⟩) hi hd, M.bind_ok, Buf.wr_ok _ hi]

/-- Use of `ActsOn` on a concrete buffer. -/
theorem ActsOn.run {f : Buf α → M (Buf α)} {P : Nat → Prop} {g : Nat → CellTr α} (h : ActsOn N f P g) {b : Buf α} (hb : b.size = N)
    (hg : ∀ k, P k → ∃ c, g k (b.data k) = some c) :
    ∃ b', f b = .ok b' ∧ b'.size = N ∧ (∀ k, P k → g k (b.data k) = some (b'.data k)) ∧ (∀ k, ¬ P k → b'.data k = b.data k) := by
  classical
  have : ∀ k, ∃ c, (P k → g k (b.data k) = some c) ∧ (¬ P k → c = b.data k) := by
    intro k
    by_cases hk : P k
    · obtain ⟨c, hc⟩ := hg k hk
      exact ⟨c, fun _ => hc, fun h => absurd hk h⟩
    · exact ⟨b.data k, fun h => absurd h hk, fun _ => rfl⟩
  choose d' h1 h2 using this
  refine ⟨⟨N, d'⟩, ?_, rfl, h1, h2⟩
  rw [← h b.data d' h1 h2, ← hb]

/-! ### Cells of a three-dimensional view -/

/-- Index arithmetic of the view of `m*k*n` cells. -/
theorem cell3_lt {m k n i j l : Nat} (hi : i < m) (hj : j < k) (hl : l < n) : i + m * (j + k * l) < m * (k * n) := by
  have h1 : j + k * l < k * n := by
    calc j + k * l < k + k * l := by omega
      _ = k * (l + 1) := by ring_nf
      _ ≤ k * n := Nat.mul_le_mul_left k hl
  calc i + m * (j + k * l) < m + m * (j + k * l) := by omega
    _ = m * (j + k * l + 1) := by ring_nf
    _ ≤ m * (k * n) := Nat.mul_le_mul_left m h1

theorem cell2_lt {m n i l : Nat} (hi : i < m) (hl : l < n) : i + m * l < m * n := by
  calc i + m * l < m + m * l := by omega
    _ = m * (l + 1) := by ring_nf
    _ ≤ m * n := Nat.mul_le_mul_left m hl

theorem cell2_mod {m i l : Nat} (hi : i < m) : (i + m * l) % m = i := by rw [Nat.add_mul_mod_self_left, Nat.mod_eq_of_lt hi]
theorem cell2_div {m i l : Nat} (hi : i < m) : (i + m * l) / m = l := by
  rw [Nat.add_mul_div_left _ _ (by omega), Nat.div_eq_of_lt hi, Nat.zero_add]

theorem cell2_inj {m i j i' j' : Nat} (hi : i < m) (hi' : i' < m) (h : i + m * j = i' + m * j') : i = i' ∧ j = j' :=
  ⟨by rw [← cell2_mod (l := j) hi, h, cell2_mod hi'], by rw [← cell2_div (l := j) hi, h, cell2_div hi']⟩

theorem cell3_inj {m k i j l i' j' l' : Nat} (hi : i < m) (hi' : i' < m) (hj : j < k) (hj' : j' < k)
    (h : i + m * (j + k * l) = i' + m * (j' + k * l')) : i = i' ∧ j = j' ∧ l = l' := by
  obtain ⟨h1, h2⟩ := cell2_inj hi hi' h
  exact ⟨h1, cell2_inj hj hj' h2⟩

end NNTile
