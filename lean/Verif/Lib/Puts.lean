import Verif.Lib.ActsOn
import Verif.Lib.Elementwise
/-! Loops that set a set of cells to known values. -/
namespace NNTile
variable {α : Type} {o : Buf α}

/-- `f` sets every cell `k` with `P k` to `v k`, provided that these cells still have their contents in `o`; other cells are not changed. -/
def Puts (o : Buf α) (f : Buf α → M (Buf α)) (P : Nat → Prop) (v : Nat → α) : Prop :=
  ∀ d : Buf α, d.size = o.size → (∀ k, P k → d.data k = o.data k) →
    ∃ d', f d = .ok d' ∧ d'.size = o.size ∧ (∀ k, P k → d'.data k = some (v k)) ∧ (∀ k, ¬ P k → d'.data k = d.data k)

theorem Puts.forN {n : Nat} {f : Nat → Buf α → M (Buf α)} {P : Nat → Nat → Prop} {v : Nat → α}
    (h : ∀ i, i < n → Puts o (f i) (P i) v) (hdis : ∀ i j, i < j → j < n → ∀ k, P i k → ¬ P j k) :
    Puts o (fun b => NNTile.forN n f b) (fun k => ∃ i, i < n ∧ P i k) v := by
  induction n with
  | zero => intro d hd _; exact ⟨d, rfl, hd, by simp, fun _ _ => rfl⟩
  | succ n ih =>
    intro d hd hP
    obtain ⟨d1, e1, z1, a1, b1⟩ := ih (fun i hi => h i (by omega)) (fun i j hij hj => hdis i j hij (by omega)) d hd
      (fun k ⟨i, hi, hk⟩ => hP k ⟨i, by omega, hk⟩)
    have hno : ∀ k, P n k → ¬ ∃ i, i < n ∧ P i k := by
      rintro k hk ⟨i, hi, hik⟩
      exact hdis i n hi (by omega) k hik hk
    obtain ⟨d2, e2, z2, a2, b2⟩ := h n (by omega) d1 z1 (fun k hk => by rw [b1 k (hno k hk)]; exact hP k ⟨n, by omega, hk⟩)
    refine ⟨d2, by show NNTile.forN n f d >>= f n = _; rw [show NNTile.forN n f d = _ from e1]; exact e2, z2, ?_, ?_⟩
    · rintro k ⟨i, hi, hk⟩
      by_cases hn : P n k
      · exact a2 k hn
      · rw [b2 k hn]
        rcases Nat.lt_succ_iff_lt_or_eq.1 hi with h' | rfl
        · exact a1 k ⟨i, h', hk⟩
        · exact absurd hk hn
    · intro k hk
      rw [b2 k (fun h => hk ⟨n, by omega, h⟩), b1 k (fun ⟨i, hi, hik⟩ => hk ⟨i, by omega, hik⟩)]

theorem Puts.pre {β : Type _} {e : M β} {x : β} {f : β → Buf α → M (Buf α)} {P : Nat → Prop} {v : Nat → α} (h : e = .ok x)
    (h' : Puts o (f x) P v) : Puts o (fun b => e >>= fun x => f x b) P v := by
  subst h; exact h'

theorem Puts.step {i : Nat} {f : Buf α → M (Buf α)} {v : Nat → α} (hi : i < o.size)
    (h : ∀ d : Buf α, i < d.size → d.data i = o.data i → f d = .ok (d.put i (v i))) : Puts o f (fun k => k = i) v := by
  intro d hd hP
  refine ⟨d.put i (v i), h d (by omega) (hP i rfl), hd, ?_, ?_⟩
  · rintro k rfl; simp [Buf.put]
  · intro k hk; simp [Buf.put, hk]

theorem Puts.run {f : Buf α → M (Buf α)} {P : Nat → Prop} {v : Nat → α} (h : Puts o f P v) :
    ∃ b', f o = .ok b' ∧ b'.size = o.size ∧ (∀ k, P k → b'.data k = some (v k)) ∧ (∀ k, ¬ P k → b'.data k = o.data k) :=
  h o rfl (fun _ _ => rfl)

theorem Puts.congr {f : Buf α → M (Buf α)} {P Q : Nat → Prop} {v w : Nat → α} (h : Puts o f P v) (hP : ∀ k, P k ↔ Q k)
    (hv : ∀ k, P k → v k = w k) : Puts o f Q w := by
  intro d hd hQ
  obtain ⟨d', a, b, c, e⟩ := h d hd (fun k hk => hQ k ((hP k).1 hk))
  exact ⟨d', a, b, fun k hk => by rw [c k ((hP k).2 hk), hv k ((hP k).2 hk)], fun k hk => e k (fun h => hk ((hP k).1 h))⟩

/-! ### `m × k × n × batch` view, loops over batch, axis, then the rest -/

/-- `i0 + m*(i2 + k*(i1 + n*b))`. -/
def cell4 (m k n i0 i2 i1 b : Nat) : Nat := i0 + m * (i2 + k * (i1 + n * b))

theorem cell4_lt {m k n bt i0 i2 i1 b : Nat} (h0 : i0 < m) (h2 : i2 < k) (h1 : i1 < n) (hb : b < bt) :
    cell4 m k n i0 i2 i1 b < m * (k * (n * bt)) := cell3_lt h0 h2 (cell2_lt h1 hb)

theorem cell4_inj {m k n i0 i2 i1 b j0 j2 j1 c : Nat} (h0 : i0 < m) (h2 : i2 < k) (h1 : i1 < n) (h0' : j0 < m) (h2' : j2 < k) (h1' : j1 < n)
    (h : cell4 m k n i0 i2 i1 b = cell4 m k n j0 j2 j1 c) : i0 = j0 ∧ i2 = j2 ∧ i1 = j1 ∧ b = c := by
  obtain ⟨a1, a2, a3⟩ := cell3_inj h0 h0' h2 h2' h
  obtain ⟨a4, a5⟩ := cell2_inj h1 h1' a3
  exact ⟨a1, a2, a4, a5⟩

/-- Loops `i2 < k`, `i1 < n`, `i0 < m` for one `b`. -/
theorem forN_fiber_puts {β : Type} {m k n bt b : Nat} {pre : Nat → M β} {val : Nat → β} {body : β → Nat → Nat → Nat → Buf α → M (Buf α)}
    (ho : o.size = m * (k * (n * bt))) (hb : b < bt) (v : Nat → Nat → Nat → Nat → α)
    (hpre : ∀ i2, i2 < k → pre i2 = .ok (val i2))
    (hbody : ∀ i2 i1 i0, i2 < k → i1 < n → i0 < m → ∀ d : Buf α, cell4 m k n i0 i2 i1 b < d.size →
      d.data (cell4 m k n i0 i2 i1 b) = o.data (cell4 m k n i0 i2 i1 b) →
      body (val i2) i2 i1 i0 d = .ok (d.put (cell4 m k n i0 i2 i1 b) (v i0 i2 i1 b))) :
    Puts o (fun dst => forN k (fun i2 dst => pre i2 >>= fun x => forN n (fun i1 dst => forN m (fun i0 dst => body x i2 i1 i0 dst) dst) dst) dst)
      (fun c => ∃ i2, i2 < k ∧ ∃ i1, i1 < n ∧ ∃ i0, i0 < m ∧ c = cell4 m k n i0 i2 i1 b)
      (fun c => v (c % m) (c / m % k) (c / m / k % n) (c / m / k / n)) := by
  apply Puts.forN (f := fun i2 dst => pre i2 >>= fun x => forN n (fun i1 dst => forN m (fun i0 dst => body x i2 i1 i0 dst) dst) dst)
    (P := fun i2 c => ∃ i1, i1 < n ∧ ∃ i0, i0 < m ∧ c = cell4 m k n i0 i2 i1 b)
  · intro i2 h2
    apply Puts.pre (f := fun x b => forN n (fun i1 dst => forN m (fun i0 dst => body x i2 i1 i0 dst) dst) b) (hpre i2 h2)
    apply Puts.forN (f := fun i1 dst => forN m (fun i0 dst => body (val i2) i2 i1 i0 dst) dst)
      (P := fun i1 c => ∃ i0, i0 < m ∧ c = cell4 m k n i0 i2 i1 b)
    · intro i1 h1
      apply Puts.forN (f := fun i0 dst => body (val i2) i2 i1 i0 dst) (P := fun i0 c => c = cell4 m k n i0 i2 i1 b)
      · intro i0 h0
        apply Puts.step
        · rw [ho]; exact cell4_lt h0 h2 h1 hb
        · intro d hd he
          rw [hbody i2 i1 i0 h2 h1 h0 d hd he]
          simp only [cell4, cell2_mod h0, cell2_div h0, cell2_mod h2, cell2_div h2, cell2_mod h1, cell2_div h1]
      · rintro i j hij hj c rfl h'
        have := cell4_inj (by omega) h2 h1 hj h2 h1 h'
        omega
    · rintro i j hij hj c ⟨i0, h0, rfl⟩ ⟨j0, h0', h'⟩
      have := cell4_inj h0 h2 (by omega) h0' h2 hj h'
      omega
  · rintro i j hij hj c ⟨i1, h1, i0, h0, rfl⟩ ⟨j1, h1', j0, h0', h'⟩
    have := cell4_inj h0 (by omega) h1 h0' hj h1' h'
    omega

/-- Result of the loops over `b`, `i2`, `i1`, `i0`. -/
theorem forN_fiber4 {β : Type} {m k n bt : Nat} {pre : Nat → Nat → M β} {val : Nat → Nat → β} {body : β → Nat → Nat → Nat → Nat → Buf α → M (Buf α)}
    (ho : o.size = m * (k * (n * bt))) (v : Nat → Nat → Nat → Nat → α)
    (hpre : ∀ b i2, b < bt → i2 < k → pre b i2 = .ok (val b i2))
    (hbody : ∀ b i2 i1 i0, b < bt → i2 < k → i1 < n → i0 < m → ∀ d : Buf α, cell4 m k n i0 i2 i1 b < d.size →
      d.data (cell4 m k n i0 i2 i1 b) = o.data (cell4 m k n i0 i2 i1 b) →
      body (val b i2) b i2 i1 i0 d = .ok (d.put (cell4 m k n i0 i2 i1 b) (v i0 i2 i1 b))) :
    ∃ d', forN bt (fun b dst => forN k (fun i2 dst => pre b i2 >>= fun x => forN n (fun i1 dst => forN m (fun i0 dst => body x b i2 i1 i0 dst) dst) dst) dst) o
        = .ok d' ∧ d'.size = o.size ∧
      ∀ i0 i2 i1 b, i0 < m → i2 < k → i1 < n → b < bt → d'.data (cell4 m k n i0 i2 i1 b) = some (v i0 i2 i1 b) := by
  have key := Puts.forN (o := o) (n := bt)
    (f := fun b dst => forN k (fun i2 dst => pre b i2 >>= fun x => forN n (fun i1 dst => forN m (fun i0 dst => body x b i2 i1 i0 dst) dst) dst) dst)
    (P := fun b c => ∃ i2, i2 < k ∧ ∃ i1, i1 < n ∧ ∃ i0, i0 < m ∧ c = cell4 m k n i0 i2 i1 b)
    (v := fun c => v (c % m) (c / m % k) (c / m / k % n) (c / m / k / n))
    (fun b hb => forN_fiber_puts (val := val b) (body := fun x => body x b) ho hb v (fun i2 h2 => hpre b i2 hb h2) (fun i2 i1 i0 h2 h1 h0 => hbody b i2 i1 i0 hb h2 h1 h0))
    (by
      rintro i j hij hj c ⟨i2, h2, i1, h1, i0, h0, rfl⟩ ⟨j2, h2', j1, h1', j0, h0', h'⟩
      have := cell4_inj h0 h2 h1 h0' h2' h1' h'
      omega)
  obtain ⟨d', e, z, a, -⟩ := key.run
  refine ⟨d', e, z, ?_⟩
  intro i0 i2 i1 b h0 h2 h1 hb
  rw [a _ ⟨b, hb, i2, h2, i1, h1, i0, h0, rfl⟩]
  simp only [cell4, cell2_mod h0, cell2_div h0, cell2_mod h2, cell2_div h2, cell2_mod h1, cell2_div h1]

/-- Result of the loops over `i2`, `i1`, `i0` (no batch). -/
theorem forN_fiber3 {β : Type} {m k n : Nat} {pre : Nat → M β} {val : Nat → β} {body : β → Nat → Nat → Nat → Buf α → M (Buf α)}
    (ho : o.size = m * (k * n)) (v : Nat → Nat → Nat → α)
    (hpre : ∀ i2, i2 < k → pre i2 = .ok (val i2))
    (hbody : ∀ i2 i1 i0, i2 < k → i1 < n → i0 < m → ∀ d : Buf α, i0 + m * (i2 + k * i1) < d.size →
      d.data (i0 + m * (i2 + k * i1)) = o.data (i0 + m * (i2 + k * i1)) →
      body (val i2) i2 i1 i0 d = .ok (d.put (i0 + m * (i2 + k * i1)) (v i0 i2 i1))) :
    ∃ d', forN k (fun i2 dst => pre i2 >>= fun x => forN n (fun i1 dst => forN m (fun i0 dst => body x i2 i1 i0 dst) dst) dst) o
        = .ok d' ∧ d'.size = o.size ∧
      ∀ i0 i2 i1, i0 < m → i2 < k → i1 < n → d'.data (i0 + m * (i2 + k * i1)) = some (v i0 i2 i1) := by
  have e0 : ∀ i0 i2 i1, cell4 m k n i0 i2 i1 0 = i0 + m * (i2 + k * i1) := by intros; simp [cell4]
  obtain ⟨d', e, z, a, -⟩ := (forN_fiber_puts (o := o) (bt := 1) (b := 0) (n := n) (m := m) (k := k) (pre := pre) (val := val) (body := body) (by simpa using ho) (by omega)
    (fun i0 i2 i1 _ => v i0 i2 i1) hpre (by simpa only [e0] using hbody)).run
  refine ⟨d', e, z, ?_⟩
  intro i0 i2 i1 h0 h2 h1
  have := a (cell4 m k n i0 i2 i1 0) ⟨i2, h2, i1, h1, i0, h0, rfl⟩
  rw [e0] at this
  rw [this]
  simp only [cell2_mod h0, cell2_div h0, cell2_mod h2, cell2_div h2, Nat.mod_eq_of_lt h1]

end NNTile
