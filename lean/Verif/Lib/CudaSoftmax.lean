import Verif.Lib.CudaBlockSum
import Verif.Lib.CudaSliceSum
import Mathlib.Tactic.Linarith
/-! `softmax` and `softmax_inplace` on GPU. -/
namespace NNTile

section
variable {α : Type} [FP α]

/-! ### Loops with effects -/

theorem wp_forP {base : Loc → α} {f : Nat → Unit → PM α Unit} {J : Nat → Mem α → Prop} (n : Nat)
    (h : ∀ i, i < n → ∀ (k : Unit → Prog α) Q m, J i m → (∀ m', J (i+1) m' → (k ()).wp base Q m') → (f i () k).wp base Q m) :
    ∀ (k : Unit → Prog α) Q m, J 0 m → (∀ m', J n m' → (k ()).wp base Q m') → (forP n f () k).wp base Q m := by
  induction n with
  | zero => intro k Q m h0 hk; exact hk m h0
  | succ n ih =>
    intro k Q m h0 hk
    refine ih (fun i hi => h i (by omega)) _ Q m h0 fun m' hm' => ?_
    exact h n (by omega) k Q m' hm' hk

theorem foot_forP {c : Cls α} {m0 : Mem α} {t : Tid} {f : Nat → Unit → PM α Unit} (n : Nat)
    (h : ∀ i, i < n → ∀ k : Unit → Prog α, (k ()).FootB c m0 t → (f i () k).FootB c m0 t) : ∀ k : Unit → Prog α, (k ()).FootB c m0 t → (forP n f () k).FootB c m0 t := by
  induction n with
  | zero => intro k hk; exact hk
  | succ n ih =>
    intro k hk
    exact ih (fun i hi => h i (by omega)) _ (h n (by omega) k hk)

/-! ### One pair of indices per block -/

section
variable {m n shared : Nat} {active : Nat → Bool} {body : Tid → Nat → Nat → PM α Unit} (hm : 0 < m ∧ m ≤ 65535) (hn : 0 < n ∧ n ≤ 65535)
include hm hn

omit [FP α] in
theorem perBlock_grid : (perBlockLaunch m n shared active body).grid = ⟨1, m, n⟩ := by
  have a : ¬ 65535 < m := by omega
  have b : ¬ 65535 < n := by omega
  simp only [perBlockLaunch, if_neg a, if_neg b, uint32_eq (show m < 2^32 by omega), uint32_eq (show n < 2^32 by omega)]

omit [FP α] in
theorem perBlock_valid : (perBlockLaunch m n shared active body).Valid := by
  have e := perBlock_grid (shared := shared) (active := active) (body := body) hm hn
  refine ⟨?_, ?_, ?_, ?_, ?_, ?_, ?_, ?_, ?_, ?_, ?_, ?_, ?_⟩ <;> first | (rw [e]; dsimp only; omega) | (simp only [perBlockLaunch]; omega)

omit [FP α] in
theorem perBlock_has {t : Tid} : (perBlockLaunch m n shared active body).Has t ↔ t.blk.x = 0 ∧ t.blk.y < m ∧ t.blk.z < n ∧ t.thr.x < 32 ∧ t.thr.y = 0 ∧ t.thr.z = 0 := by
  have e := perBlock_grid (shared := shared) (active := active) (body := body) hm hn
  unfold Launch.Has
  rw [e]
  simp only [perBlockLaunch]
  omega

omit [FP α] in
theorem perBlock_body {t : Tid} (ht : (perBlockLaunch m n shared active body).Has t) :
    (perBlockLaunch m n shared active body).body t = if active t.thr.x then (body t t.blk.y t.blk.z).prog else .done := by
  have ht := (perBlock_has hm hn).1 ht
  have a : ¬ 65535 < m := by omega
  have b : ¬ 65535 < n := by omega
  simp only [perBlockLaunch, if_neg a, if_neg b, Nat.mul_one]
  rw [show min (t.blk.y + 1) m - t.blk.y = 1 by omega, show min (t.blk.z + 1) n - t.blk.z = 1 by omega]
  rfl
end

/-! ### Softmax -/

/-- The part after the barrier. -/
def softTail (sv : Nat) (m k : Nat) (alpha : α) (t : Tid) (i0 i1 : Nat) : PM α Unit :=
  forP (strideCount t.thr.x k 32) (fun q _ => do
    let i2 := t.thr.x + q*32
    let val ← ld sv (i1*k*m + i0 + i2*m)
    if FP.isInf val then st 0 (i1*k*m + i0 + i2*m) 0
    else do
      let max ← sld t.blk 0
      let sum ← sld t.blk 1
      st 0 (i1*k*m + i0 + i2*m) (alpha * FP.exp (val - max) / sum)) ()

def softBody (sv : Nat) (m k : Nat) (alpha : α) (t : Tid) (i0 i1 : Nat) : PM α Unit := do
  if t.thr.x = 0 then do
    let max ← ld 1 (2*(m*i1 + i0))
    sst t.blk 0 max
    let sum ← ld 1 (2*(m*i1 + i0) + 1)
    sst t.blk 1 sum
  else pure ()
  syncthreads
  softTail sv m k alpha t i0 i1

theorem softBody_pos {sv m k : Nat} {alpha : α} {t : Tid} {i0 i1 : Nat} (h : t.thr.x = 0) : (softBody sv m k alpha t i0 i1).prog =
    .rd (.glob 1, 2*(m*i1 + i0)) fun max => .wr (.shared t.blk, 0) max (.rd (.glob 1, 2*(m*i1 + i0) + 1) fun sum => .wr (.shared t.blk, 1) sum (.sync (softTail sv m k alpha t i0 i1).prog)) := by
  unfold softBody
  simp only [if_pos h]
  rfl

theorem softBody_neg {sv m k : Nat} {alpha : α} {t : Tid} {i0 i1 : Nat} (h : ¬ t.thr.x = 0) : (softBody sv m k alpha t i0 i1).prog =
    .sync (softTail sv m k alpha t i0 i1).prog := by
  unfold softBody
  simp only [if_neg h]
  rfl

/-- The cell with indices `i0, i2, i1`. -/
theorem cell_inj {m k a b c a' b' c' : Nat} (ha : a < m) (ha' : a' < m) (hc : c < k) (hc' : c' < k) (h : b*k*m + a + c*m = b'*k*m + a' + c'*m) : a = a' ∧ b = b' ∧ c = c' := by
  have e1 := tid_eta (y := c + b*k) ha
  have e2 := tid_eta (y := c' + b'*k) ha'
  have f1 := tid_eta (y := b) hc
  have f2 := tid_eta (y := b') hc'
  have e : a + (c + b*k)*m = a' + (c' + b'*k)*m := by rw [Nat.add_mul, Nat.add_mul]; omega
  rw [e] at e1
  have g : c + b*k = c' + b'*k := e1.1.symm.trans e2.1
  rw [g] at f1
  exact ⟨e1.2.symm.trans e2.2, f1.1.symm.trans f2.1, f1.2.symm.trans f2.2⟩

theorem soft_gives {m n k : Nat} (hm : 0 < m ∧ m ≤ 65535) (hn : 0 < n ∧ n ≤ 65535) {srcs : List (Buf α)} {dst dst' : Buf α} {alpha : α} (sv : Nat) (hsv : sv = 0 ∨ sv = 2)
    (mx sm : Nat → Nat → α) (val : Nat → Nat → Nat → α)
    (hread : ∀ i0 i1, i0 < m → i1 < n → (taskBufs dst srcs 1).rd (2*(m*i1 + i0)) = .ok (mx i0 i1) ∧ (taskBufs dst srcs 1).rd (2*(m*i1 + i0) + 1) = .ok (sm i0 i1))
    (hval : ∀ i0 i1 i2, i0 < m → i1 < n → i2 < k → (taskBufs dst srcs sv).rd (i1*k*m + i0 + i2*m) = .ok (val i0 i1 i2) ∧ i1*k*m + i0 + i2*m < dst.size ∧
      dst'.rd (i1*k*m + i0 + i2*m) = .ok (softmaxVal alpha (val i0 i1 i2) (mx i0 i1) (sm i0 i1)))
    (hsize : dst'.size = dst.size) (hframe : ∀ x, (∀ i0 i1 i2, i0 < m → i1 < n → i2 < k → x ≠ i1*k*m + i0 + i2*m) → dst'.data x = dst.data x) :
    (perBlockLaunch m n 2 (fun _ => true) fun t i0 i1 => softBody sv m k alpha t i0 i1).Gives srcs dst dst' := by
  classical
  set g := perBlockLaunch m n 2 (fun _ => true) fun t i0 i1 => softBody sv m k alpha t i0 i1 with hg
  have hv : g.Valid := perBlock_valid hm hn
  have hhas : ∀ {t}, g.Has t ↔ t.blk.x = 0 ∧ t.blk.y < m ∧ t.blk.z < n ∧ t.thr.x < 32 ∧ t.thr.y = 0 ∧ t.thr.z = 0 := perBlock_has hm hn
  set m0 := g.mem (taskBufs dst srcs) with hm0
  let cell : Dim3 → Nat → Nat := fun b i2 => b.z*k*m + b.y + i2*m
  let isB : Dim3 → Prop := fun b => b.x = 0 ∧ b.y < m ∧ b.z < n
  let W : Dim3 → Loc → Prop := fun b l => l.1 = .shared b ∨ (isB b ∧ ∃ i2, i2 < k ∧ l = (.glob 0, cell b i2))
  let Post : Dim3 → Mem α → Prop := fun b m => isB b → ∀ i2, i2 < k → m.rd (.glob 0, cell b i2) = dst'.rd (cell b i2)
  have hcell : ∀ b b' i i', isB b → isB b' → i < k → i' < k → cell b i = cell b' i' → b = b' ∧ i = i' := by
    rintro ⟨x, y, z⟩ ⟨x', y', z'⟩ i i' ⟨h1, h2, h3⟩ ⟨g1, g2, g3⟩ hi hi' e
    obtain ⟨e1, e2, e3⟩ := cell_inj (a := y) (a' := y') (b := z) (b' := z') h2 g2 hi hi' e
    dsimp only at h1 g1
    subst h1 g1 e1 e2 e3
    exact ⟨rfl, rfl⟩
  have hstart : ∀ t, g.Has t → g.start t = (softBody sv m k alpha t t.blk.y t.blk.z).prog := by
    intro t ht
    unfold Launch.start
    rw [if_pos ⟨hv, ht⟩, hg, perBlock_body hm hn ht, if_pos rfl]
  refine Launch.gives_of_works (Post := Post) (W := W) (Launch.works_of_phases (act := fun _ => True) (taskBufs dst srcs) ?_ W SrcLoc ?_ ?_ Post ?_ 2 fun b => ?_) ?_ hsize ?_ ?_
  · intro t ht
    unfold Launch.start
    rw [if_neg fun h => ht ⟨h.2, trivial⟩]
  · rintro b b' l hb (h | ⟨h1, i2, hi, rfl⟩) (h' | ⟨g1, j2, hj, h'⟩)
    · rw [h] at h'; cases h'; exact hb rfl
    · subst h'; cases h
    · cases h'
    · exact hb (hcell _ _ _ _ h1 g1 hi hj (by simpa using h')).1
  · rintro b l (h | ⟨h1, i2, hi, rfl⟩) ⟨j, hj⟩
    · rw [h] at hj; cases hj
    · cases hj
  · intro b m m1 hag hp hb i2 hi
    rw [hag.1 _ (Or.inl (Or.inr ⟨hb, i2, hi, rfl⟩))]
    exact hp hb i2 hi
  · set L := g.blockL (fun _ => True) b with hLdef
    have hL : L.Nodup := Launch.blockL_nodup
    have hmem : ∀ t ∈ L, t.blk = b ∧ g.Has t := fun t ht => ⟨(Launch.mem_blockL.1 ht).1, (Launch.mem_blockL.1 ht).2.1⟩
    have hB : ∀ t ∈ L, isB b ∧ t.thr.x < 32 := by
      intro t ht
      obtain ⟨e, h⟩ := hmem t ht
      have := hhas.1 h
      rw [e] at this
      exact ⟨⟨this.1, this.2.1, this.2.2.1⟩, this.2.2.2.1⟩
    have hxinj : ∀ t ∈ L, ∀ u ∈ L, t.thr.x = u.thr.x → t = u := by
      rintro ⟨tb, ⟨x, y, z⟩⟩ ht ⟨ub, ⟨x', y', z'⟩⟩ hu e
      have h1 := hhas.1 (hmem _ ht).2
      have h2 := hhas.1 (hmem _ hu).2
      have e1 := (hmem _ ht).1.trans (hmem _ hu).1.symm
      dsimp only at h1 h2 e e1
      obtain ⟨_, _, _, _, a1, a2⟩ := h1
      obtain ⟨_, _, _, _, b1, b2⟩ := h2
      subst e e1 a1 a2 b1 b2
      rfl
    have hexist : ∀ x, x < 32 → isB b → ∃ t ∈ L, t.thr.x = x := by
      intro x hx hb
      exact ⟨⟨b, ⟨x, 0, 0⟩⟩, Launch.mem_blockL.2 ⟨rfl, hhas.2 ⟨hb.1, hb.2.1, hb.2.2, hx, rfl, rfl⟩, trivial⟩, rfl⟩
    have hsh0 : (m0 (.shared b)).size = 2 := rfl
    let R : Tid → Prog α := fun t => (softTail sv m k alpha t b.y b.z).prog
    -- phase 1
    let c1 : Cls α := ⟨fun t l => t ∈ L ∧ t.thr.x = 0 ∧ l.1 = .shared b, SrcLoc, fun _ => False, fun _ => False, fun _ => 0⟩
    have hc1 : c1.Ok := by
      refine ⟨?_, ?_, ?_, ?_, ?_, ?_, ?_, ?_, ?_⟩ <;> try (intro l h; exact h.elim)
      · rintro t u l hne ⟨h1, h2, h3⟩ ⟨g1, g2, g3⟩
        exact hne (hxinj t h1 u g1 (h2.trans g2.symm))
      · rintro t l ⟨h1, h2, h3⟩ ⟨j, hj⟩; rw [h3] at hj; cases hj
      · rintro t l _ h; exact h
      · rintro t l _ h; exact h
    refine BlockOk.phase hL c1 hc1 ⟨?_, ?_, ?_, ?_⟩ ?_ ?_ (fun t => .sync (R t))
      (fun K m => (∀ t ∈ K, t.thr.x = 0 → m.rd (.shared b, 0) = .ok (mx b.y b.z) ∧ m.rd (.shared b, 1) = .ok (sm b.y b.z)) ∧ (∀ l : Loc, l.1 ≠ .shared b → m.rd l = m0.rd l) ∧
        (∀ t ∈ K, t ∈ L) ∧ ∀ sp, (m sp).size = (m0 sp).size) ?_ ?_ ?_
    · rintro t l ⟨_, _, h⟩; exact Or.inl h
    · intro l h; exact h.elim
    · intro l h; exact h.elim
    · intro l h; exact Or.inr h
    · intro t ht
      rw [hstart t (hmem t ht).2]
      by_cases h : t.thr.x = 0
      · rw [softBody_pos h, (hmem t ht).1]
        exact Or.inr ⟨⟨0, rfl⟩, fun _ _ => ⟨⟨ht, h, rfl⟩, Or.inr ⟨⟨0, rfl⟩, fun _ _ => ⟨⟨ht, h, rfl⟩, trivial⟩⟩⟩⟩
      · rw [softBody_neg h]; trivial
    · intro l h; exact h.elim
    · exact ⟨by simp, fun _ _ => rfl, by simp, fun _ => rfl⟩
    · rintro K t m' ht hK ⟨i1, i2, i2', i3⟩
      rw [hstart t (hmem t ht).2]
      have hsub : ∀ u ∈ t :: K, u ∈ L := fun u hu => (List.mem_cons.1 hu).elim (fun e => e ▸ ht) (i2' u)
      by_cases h : t.thr.x = 0
      · rw [softBody_pos h, (hmem t ht).1]
        obtain ⟨m1, w1, w2, w3, w4⟩ := Mem.can_wr (m := m') (l := (.shared b, 0)) (by rw [i3, hsh0]; exact (by omega : 0 < 2)) (mx b.y b.z)
        obtain ⟨m2, x1, x2, x3, x4⟩ := Mem.can_wr (m := m1) (l := (.shared b, 1)) (by rw [w4, i3, hsh0]; exact (by omega : 1 < 2)) (sm b.y b.z)
        have hr := hread b.y b.z (hB t ht).1.2.1 (hB t ht).1.2.2
        refine ⟨mx b.y b.z, by rw [i2 _ (by simp)]; exact hr.1, m1, w1, sm b.y b.z, by rw [w3 _ (by simp), i2 _ (by simp)]; exact hr.2, m2, x1, ?_, ?_, ?_, hsub,
          fun sp => (x4 sp).trans ((w4 sp).trans (i3 sp))⟩
        · dsimp only [R]
        · intro u _ _
          exact ⟨by rw [x3 _ (by simp), w2], x2⟩
        · intro l hl
          rw [x3 _ (by rintro rfl; exact hl rfl), w3 _ (by rintro rfl; exact hl rfl), i2 l hl]
      · rw [softBody_neg h, (hmem t ht).1]
        refine ⟨rfl, ?_, i2, hsub, i3⟩
        intro u hu hl
        rcases List.mem_cons.1 hu with rfl | hu
        · exact (h hl).elim
        · exact i1 u hu hl
    rintro K1 m1 hK1 ⟨i1, i2, -, i3⟩
    have i1' : isB b → m1.rd (.shared b, 0) = .ok (mx b.y b.z) ∧ m1.rd (.shared b, 1) = .ok (sm b.y b.z) := by
      intro hb
      obtain ⟨t, ht, hx⟩ := hexist 0 (by omega) hb
      exact i1 t (hK1.mem_iff.2 ht) hx
    -- phase 2
    let c2 : Cls α := ⟨fun t l => t ∈ L ∧ ∃ i2, i2 < k ∧ i2 % 32 = t.thr.x ∧ l = (.glob 0, cell b i2), fun l => SrcLoc l ∨ l.1 = .shared b, fun _ => False, fun _ => False, fun _ => 0⟩
    have hc2 : c2.Ok := by
      refine ⟨?_, ?_, ?_, ?_, ?_, ?_, ?_, ?_, ?_⟩ <;> try (intro l h; exact h.elim)
      · rintro t u l hne ⟨h1, i, hi, hi', rfl⟩ ⟨g1, j, hj, hj', e⟩
        have := (hcell b b i j (hB t h1).1 (hB t h1).1 hi hj (by simpa using e)).2
        subst this
        exact hne (hxinj t h1 u g1 (hi'.symm.trans hj'))
      · rintro t l ⟨h1, i, hi, hi', rfl⟩ (⟨j, hj⟩ | hj)
        · cases hj
        · cases hj
      · rintro t l _ h; exact h
      · rintro t l _ h; exact h
    let Inv : (Nat → Prop) → Mem α → Prop := fun D m' => (∀ i, i < k → D i → m'.rd (.glob 0, cell b i) = dst'.rd (cell b i)) ∧ (∀ i, i < k → ¬ D i → m'.rd (.glob 0, cell b i) = m0.rd (.glob 0, cell b i)) ∧
        (∀ l : Loc, SrcLoc l ∨ l.1 = .shared b → m'.rd l = m1.rd l) ∧ ∀ sp, (m' sp).size = (m0 sp).size
    have hcongr : ∀ (D D' : Nat → Prop) m', (∀ i, i < k → (D i ↔ D' i)) → Inv D m' → Inv D' m' := by
      rintro D D' m' h ⟨a1, a2, a3, a4⟩
      exact ⟨fun i hi hD => a1 i hi ((h i hi).2 hD), fun i hi hD => a2 i hi fun hd => hD ((h i hi).1 hd), a3, a4⟩
    have hmemq : ∀ t ∈ L, ∀ q, q < strideCount t.thr.x k 32 → t.thr.x + q*32 < k ∧ (t.thr.x + q*32) % 32 = t.thr.x := fun t ht q hq =>
      (mem_strided (n := k) (hB t ht).2 (i := t.thr.x + q*32)).1 (List.mem_map.2 ⟨q, List.mem_range.2 hq, rfl⟩)
    refine BlockOk.phase hL c2 hc2 ⟨?_, ?_, ?_, ?_⟩ ?_ ?_ (fun _ => .done) (fun K => Inv fun i => ∃ u ∈ K, u ∈ L ∧ u.thr.x = i % 32) ?_ ?_ ?_
    · rintro t l ⟨h1, i, hi, _, rfl⟩; exact Or.inr ⟨(hB t h1).1, i, hi, rfl⟩
    · intro l h; exact h.elim
    · intro l h; exact h.elim
    · rintro l (h | h)
      · exact Or.inr h
      · exact Or.inl (Or.inl h)
    · intro t ht
      change (R t).FootB c2 m1 t
      refine foot_forP _ (fun q hq kk hkk => ?_) _ trivial
      have hq' := hmemq t ht q hq
      have hown : c2.own t (.glob 0, b.z*k*m + b.y + (t.thr.x + q*32)*m) := ⟨ht, _, hq'.1, hq'.2, rfl⟩
      have hrest : ∀ v : α, ((if FP.isInf v then st 0 (b.z*k*m + b.y + (t.thr.x + q*32)*m) 0
          else (do
            let max ← sld t.blk 0
            let sum ← sld t.blk 1
            st 0 (b.z*k*m + b.y + (t.thr.x + q*32)*m) (alpha * FP.exp (v - max) / sum)) : PM α Unit) kk).FootB c2 m1 t := by
        intro v
        by_cases h : FP.isInf v
        · rw [if_pos h]; exact ⟨hown, hkk⟩
        · rw [if_neg h, (hmem t ht).1]
          exact Or.inr ⟨Or.inr rfl, fun _ _ => Or.inr ⟨Or.inr rfl, fun _ _ => ⟨hown, hkk⟩⟩⟩
      rcases hsv with rfl | rfl
      · exact Or.inl ⟨hown, hrest⟩
      · exact Or.inr ⟨Or.inl ⟨1, rfl⟩, fun v _ => hrest v⟩
    · intro l h; exact h.elim
    · refine ⟨fun i _ h => ?_, fun i _ _ => i2 _ (by simp), fun _ _ => rfl, i3⟩
      simp at h
    · rintro K t m' ht hK hI
      change (R t).wp _ _ m'
      obtain ⟨hb, hx⟩ := hB t ht
      refine wp_forP (J := fun q => Inv fun i => (∃ u ∈ K, u ∈ L ∧ u.thr.x = i % 32) ∨ ∃ q', q' < q ∧ i = t.thr.x + q'*32) _ (fun q hq kk Q m2 hJ hkk => ?_) _ _ _ ?_ (fun m2 hJ => ⟨rfl, ?_⟩)
      · obtain ⟨j1, j2, j3, j4⟩ := hJ
        have hq' := hmemq t ht q hq
        obtain ⟨v1, v2, v3⟩ := hval b.y b.z (t.thr.x + q*32) hb.2.1 hb.2.2 hq'.1
        have hnew : ¬ ((∃ u ∈ K, u ∈ L ∧ u.thr.x = (t.thr.x + q*32) % 32) ∨ ∃ q', q' < q ∧ t.thr.x + q*32 = t.thr.x + q'*32) := by
          rintro (⟨u, hu, huL, e⟩ | ⟨q', hq', e⟩)
          · rw [hq'.2] at e
            exact hK (hxinj u huL t ht e ▸ hu)
          · omega
        have hread0 : m2.rd (.glob sv, b.z*k*m + b.y + (t.thr.x + q*32)*m) = .ok (val b.y b.z (t.thr.x + q*32)) := by
          rcases hsv with rfl | rfl
          · exact (j2 _ hq'.1 hnew).trans v1
          · exact (j3 _ (Or.inl ⟨1, rfl⟩)).trans ((i2 _ (by simp)).trans v1)
        obtain ⟨m3, w1, w2, w3, w4⟩ := Mem.can_wr (m := m2) (l := (.glob 0, b.z*k*m + b.y + (t.thr.x + q*32)*m)) (by rw [j4]; exact v2)
          (softmaxVal alpha (val b.y b.z (t.thr.x + q*32)) (mx b.y b.z) (sm b.y b.z))
        have hnext : (kk ()).wp c2.base Q m3 := by
          refine hkk m3 ⟨fun i hi hD => ?_, fun i hi hD => ?_, fun l hl => ?_, fun sp => (w4 sp).trans (j4 sp)⟩
          · by_cases e : i = t.thr.x + q*32
            · subst e
              exact w2.trans v3.symm
            · rw [w3 _ (fun h => e (hcell b b _ _ hb hb hi hq'.1 (by simpa using h)).2)]
              refine j1 i hi (hD.imp id ?_)
              rintro ⟨q', h1, h2⟩
              exact ⟨q', by by_contra hc; exact e (by rw [h2, show q' = q by omega]), h2⟩
          · rw [w3 _ (fun h => hD (Or.inr ⟨q, by omega, (hcell b b _ _ hb hb hi hq'.1 (by simpa using h)).2⟩))]
            exact j2 i hi fun h => hD (h.imp id fun ⟨q', h1, h2⟩ => ⟨q', by omega, h2⟩)
          · rw [w3 _ (by rintro rfl; rcases hl with ⟨j, hj⟩ | hj <;> cases hj), j3 l hl]
        refine ⟨_, hread0, ?_⟩
        dsimp only
        unfold softmaxVal at w1
        by_cases h : FP.isInf (val b.y b.z (t.thr.x + q*32))
        · rw [if_pos h] at w1
          rw [if_pos h]
          exact ⟨m3, w1, hnext⟩
        · rw [if_neg h] at w1
          rw [if_neg h, (hmem t ht).1]
          refine ⟨_, (j3 _ (Or.inr rfl)).trans (i1' hb).1, _, (j3 _ (Or.inr rfl)).trans (i1' hb).2, m3, w1, hnext⟩
      · exact hcongr _ _ _ (fun i _ => by simp) hI
      · refine hcongr _ _ _ (fun i hi => ?_) hJ
        constructor
        · rintro (⟨u, hu, huL, e⟩ | ⟨q', hq', rfl⟩)
          · exact ⟨u, List.mem_cons_of_mem _ hu, huL, e⟩
          · exact ⟨t, List.mem_cons_self, ht, (hmemq t ht q' hq').2.symm⟩
        · rintro ⟨u, hu, huL, e⟩
          rcases List.mem_cons.1 hu with rfl | hu
          · obtain ⟨q, hq, e'⟩ := List.mem_map.1 ((mem_strided (n := k) hx (i := i)).2 ⟨hi, e.symm⟩)
            exact Or.inr ⟨q, List.mem_range.1 hq, e'.symm⟩
          · exact Or.inl ⟨u, hu, huL, e⟩
    rintro K2 m2 hK2 ⟨a1, a2, a3, a4⟩
    refine ⟨fun t _ => rfl, fun hb i hi => a1 i hi ?_⟩
    obtain ⟨t, ht, e⟩ := hexist (i % 32) (Nat.mod_lt _ (by omega)) hb
    exact ⟨t, hK2.mem_iff.2 ht, ht, e⟩
  · rintro b l (h | ⟨_, i, _, rfl⟩)
    · exact Or.inr ⟨b, h⟩
    · exact Or.inl rfl
  · intro x hx
    refine hframe x fun i0 i1 i2 h0 h1 h2 e => hx ⟨0, i0, i1⟩ (Or.inr ⟨⟨rfl, h0, h1⟩, i2, h2, by rw [e]⟩)
  · rintro m' b x hp (h | ⟨hb, i, hi, h6⟩)
    · cases h
    · have h6 : x = cell b i := by simpa using h6
      subst h6
      exact ⟨hp b hb i hi, _, (hval b.y b.z i hb.2.1 hb.2.2 hi).2.2⟩

/-! ### From the CPU kernels -/

theorem softmaxItems {m n k : Nat} {alpha : α} {mse : Buf α} {rdv : Buf α → Nat → M α} {dst dst' : Buf α} (hrd : ∀ (d d' : Buf α) i, d.size = d'.size → d.data i = d'.data i → rdv d i = rdv d' i)
    (h : forN n (fun i2 dst => forN k (fun i1 dst => forN m (fun i0 dst => rdv dst ((i2*k + i1)*m + i0) >>= fun val => mse.rd (2*m*i2 + 2*i0) >>= fun max => mse.rd (2*m*i2 + 2*i0 + 1) >>= fun sum =>
      dst.wr ((i2*k + i1)*m + i0) (softmaxVal alpha val max sum)) dst) dst) dst = .ok dst') :
    dst'.size = dst.size ∧ (∀ x, (∀ i0 i1 i2, i0 < m → i1 < n → i2 < k → x ≠ i1*k*m + i0 + i2*m) → dst'.data x = dst.data x) ∧
    ∀ i0 i1 i2, i0 < m → i1 < n → i2 < k → ∃ val max sum, rdv dst (i1*k*m + i0 + i2*m) = .ok val ∧ mse.rd (2*(m*i1 + i0)) = .ok max ∧ mse.rd (2*(m*i1 + i0) + 1) = .ok sum ∧
      i1*k*m + i0 + i2*m < dst.size ∧ dst'.rd (i1*k*m + i0 + i2*m) = .ok (softmaxVal alpha val max sum) := by
  have hc : ∀ i1 i2 i0, (i1*k + i2)*m + i0 = i1*k*m + i0 + i2*m := by intro i1 i2 i0; rw [Nat.add_mul]; omega
  rw [forN3_items (fun i2 i1 i0 dst => rdv dst ((i2*k + i1)*m + i0) >>= fun val => mse.rd (2*m*i2 + 2*i0) >>= fun max => mse.rd (2*m*i2 + 2*i0 + 1) >>= fun sum =>
      dst.wr ((i2*k + i1)*m + i0) (softmaxVal alpha val max sum))] at h
  have hmem : ∀ p : Nat × Nat × Nat, p ∈ (List.range n).product ((List.range k).product (List.range m)) ↔ p.1 < n ∧ p.2.1 < k ∧ p.2.2 < m := by
    rintro ⟨a, b, c⟩
    simp [List.product]
  obtain ⟨s1, s2, s3⟩ := runItems_own (own := fun (p : Nat × Nat × Nat) x => (p.1*k + p.2.1)*m + p.2.2 = x)
    (List.Nodup.product List.nodup_range (List.Nodup.product List.nodup_range List.nodup_range))
    (fun p hp q hq hne x hx hy => hne (by
      obtain ⟨p1, p2, p3⟩ := (hmem p).1 hp
      obtain ⟨q1, q2, q3⟩ := (hmem q).1 hq
      have := hx.trans hy.symm
      rw [hc, hc] at this
      obtain ⟨e1, e2, e3⟩ := cell_inj p3 q3 p2 q2 this
      exact Prod.ext e2 (Prod.ext e3 e1)))
    (fun p _ d d' h => by
      obtain ⟨_, _, h⟩ := M.bind_eq_ok.1 h
      obtain ⟨_, _, h⟩ := M.bind_eq_ok.1 h
      obtain ⟨_, _, h⟩ := M.bind_eq_ok.1 h
      exact ⟨(Buf.wr_eq_ok h).2.1, fun x hx => (Buf.wr_eq_ok h).2.2.1 x fun e => hx e.symm⟩) h
  refine ⟨s1, fun x hx => s2 x fun p hp e => ?_, fun i0 i1 i2 h0 h1 h2 => ?_⟩
  · obtain ⟨p1, p2, p3⟩ := (hmem p).1 hp
    exact hx _ _ _ p3 p1 p2 (by rw [← hc, e])
  · obtain ⟨e, e', h4, h5, h6, h7⟩ := s3 (i1, i2, i0) ((hmem _).2 ⟨h1, h2, h0⟩)
    obtain ⟨val, a1, h4⟩ := M.bind_eq_ok.1 h4
    obtain ⟨mx, a2, h4⟩ := M.bind_eq_ok.1 h4
    obtain ⟨sm, a3, h4⟩ := M.bind_eq_ok.1 h4
    obtain ⟨w1, w2, w3, w4⟩ := Buf.wr_eq_ok h4
    dsimp only at *
    have h8 : e.data (i1*k*m + i0 + i2*m) = dst.data (i1*k*m + i0 + i2*m) := h6 _ (hc _ _ _)
    have h9 : dst'.data (i1*k*m + i0 + i2*m) = e'.data (i1*k*m + i0 + i2*m) := h7 _ (hc _ _ _)
    rw [hc] at a1 w1 w4
    have em : 2*(m*i1 + i0) = 2*m*i1 + 2*i0 := by ring
    refine ⟨val, mx, sm, ?_, by rw [em]; exact a2, by rw [em]; exact a3, h5 ▸ w1, ?_⟩
    · rw [← a1]; exact (hrd _ _ _ h5 h8).symm
    · rw [← w4]; exact Buf.rd_congr (by rw [s1, w2, h5]) h9

theorem softmaxCuda_gives {m n k : Nat} (hm : 0 < m ∧ m ≤ 65535) (hn : 0 < n ∧ n ≤ 65535) (hk : 0 < k) {alpha : α} {mse src dst dst' : Buf α}
    (h : softmaxKernel m n k mse src alpha dst = .ok dst') : (softmaxCuda m n k alpha).Gives [mse, src] dst dst' := by
  obtain ⟨h1, h2, h3⟩ := softmaxItems (rdv := fun _ i => src.rd i) (fun _ _ _ _ _ => rfl) h
  choose! val mx sm a1 a2 a3 a4 a5 using h3
  have key : ∀ i0 i1 i2, i0 < m → i1 < n → i2 < k → mx i0 i1 i2 = mx i0 i1 0 ∧ sm i0 i1 i2 = sm i0 i1 0 := fun i0 i1 i2 g0 g1 g2 =>
    ⟨Except.ok.inj ((a2 i0 i1 i2 g0 g1 g2).symm.trans (a2 i0 i1 0 g0 g1 hk)), Except.ok.inj ((a3 i0 i1 i2 g0 g1 g2).symm.trans (a3 i0 i1 0 g0 g1 hk))⟩
  refine soft_gives hm hn 2 (Or.inr rfl) (fun i0 i1 => mx i0 i1 0) (fun i0 i1 => sm i0 i1 0) val (fun i0 i1 g0 g1 => ⟨a2 _ _ _ g0 g1 hk, a3 _ _ _ g0 g1 hk⟩)
    (fun i0 i1 i2 g0 g1 g2 => ⟨a1 _ _ _ g0 g1 g2, a4 _ _ _ g0 g1 g2, ?_⟩) h1 h2
  rw [a5 _ _ _ g0 g1 g2, (key _ _ _ g0 g1 g2).1, (key _ _ _ g0 g1 g2).2]

theorem softmaxInplaceCuda_gives {m n k : Nat} (hm : 0 < m ∧ m ≤ 65535) (hn : 0 < n ∧ n ≤ 65535) (hk : 0 < k) {alpha : α} {mse dst dst' : Buf α}
    (h : softmaxInplaceKernel m n k mse alpha dst = .ok dst') : (softmaxInplaceCuda m n k alpha).Gives [mse] dst dst' := by
  obtain ⟨h1, h2, h3⟩ := softmaxItems (rdv := fun d i => d.rd i) (fun _ _ _ => Buf.rd_congr) h
  choose! val mx sm a1 a2 a3 a4 a5 using h3
  have key : ∀ i0 i1 i2, i0 < m → i1 < n → i2 < k → mx i0 i1 i2 = mx i0 i1 0 ∧ sm i0 i1 i2 = sm i0 i1 0 := fun i0 i1 i2 g0 g1 g2 =>
    ⟨Except.ok.inj ((a2 i0 i1 i2 g0 g1 g2).symm.trans (a2 i0 i1 0 g0 g1 hk)), Except.ok.inj ((a3 i0 i1 i2 g0 g1 g2).symm.trans (a3 i0 i1 0 g0 g1 hk))⟩
  refine soft_gives hm hn 0 (Or.inl rfl) (fun i0 i1 => mx i0 i1 0) (fun i0 i1 => sm i0 i1 0) val (fun i0 i1 g0 g1 => ⟨a2 _ _ _ g0 g1 hk, a3 _ _ _ g0 g1 hk⟩)
    (fun i0 i1 i2 g0 g1 g2 => ⟨a1 _ _ _ g0 g1 g2, a4 _ _ _ g0 g1 g2, ?_⟩) h1 h2
  rw [a5 _ _ _ g0 g1 g2, (key _ _ _ g0 g1 g2).1, (key _ _ _ g0 g1 g2).2]
end
end NNTile
