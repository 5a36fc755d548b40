import Verif.Lib.CudaSliceSum
/-! `norm_slice` on GPU. -/
namespace NNTile
open Finset

theorem foldP_hypot (n : Nat) (f : Nat → ℝ) : foldP n (fun i s => FP.hypot s (f i)) 0 = Real.sqrt (∑ i ∈ range n, f i ^ 2) := by
  induction n with
  | zero => simp [foldP]
  | succ n ih =>
    rw [foldP, ih, hypot_real, Real.sq_sqrt (sum_nonneg fun i _ => sq_nonneg _), sum_range_succ]

noncomputable section
variable (b : Dim3) (slot out : Nat) (leader : Prop) [Decidable leader] (alpha beta v : ℝ)

/-- What the threads do after the third barrier. -/
def normTail4 : Prog ℝ :=
  if leader then .rd (.shared b, slot) fun s => .rd (.shared b, 64 + slot) fun bs =>
    if FP.eqb beta 0 then .wr (.glob 0, out) (FP.fabs alpha * (s * FP.sqrt bs)) .done
    else .rd (.glob 0, out) fun r => .wr (.glob 0, out) (FP.hypot (beta * r) (alpha * (s * FP.sqrt bs))) .done
  else .done
/-- After the second barrier. -/
def normTail3 : Prog ℝ := .rd (.shared b, slot) fun bm =>
  if FP.ltb 0 bm then .rd (.shared b, slot) fun bm => .atomicAdd (.shared b, 64 + slot) (v / bm * (v / bm)) (.sync (normTail4 b slot out leader alpha beta))
  else .done
/-- After the first barrier. -/
def normTail2 : Prog ℝ := .raise (.shared b, slot) v (.sync (normTail3 b slot out leader alpha beta v))
/-- After reading. -/
def normTail1 : Prog ℝ :=
  if leader then .wr (.shared b, slot) v (.wr (.shared b, 64 + slot) 0 (.sync (normTail2 b slot out leader alpha beta v))) else .sync (normTail2 b slot out leader alpha beta v)
end

theorem scaled_norm {M : ℝ} (hM : 0 < M) (l : List ℝ) : M * Real.sqrt ((l.map fun v => v / M * (v / M)).sum) = Real.sqrt ((l.map fun v => v ^ 2).sum) := by
  have e : (l.map fun v => v ^ 2).sum = M ^ 2 * (l.map fun v => v / M * (v / M)).sum := by
    induction l with
    | nil => simp
    | cons a l ih =>
      simp only [List.map_cons, List.sum_cons, ih, mul_add]
      congr 1
      field_simp
  rw [e, Real.sqrt_mul (sq_nonneg _), Real.sqrt_sq hM.le]

section
variable {g : Launch ℝ} (hv : g.Valid) {act : Tid → Prop} [DecidablePred act] {srcs : List (Buf ℝ)} {dst dst' : Buf ℝ}
  {slot : Tid → Nat} {leader : Tid → Prop} [DecidablePred leader] {out : Tid → Nat} {v : Tid → ℝ} {alpha beta : ℝ} {lead : Dim3 → Nat → Tid}
include hv

theorem blockNorm_gives (pre : Tid → PM ℝ ℝ)
    (hbody : ∀ t, g.Has t → g.body t = if act t then pre t fun s => normTail1 t.blk (slot t) (out t) (leader t) alpha beta s else .done)
    (hpre : ∀ t, g.Has t → act t → (pre t).Reads (g.mem (taskBufs dst srcs)) (v t)) (hv0 : ∀ t, 0 ≤ v t)
    (hshared : g.shared = 128) (hslot : ∀ t, g.Has t → act t → slot t < 64)
    (hlead : ∀ t u, g.Has t → act t → leader t → g.Has u → act u → leader u → t.blk = u.blk → slot t = slot u → t = u)
    (hex : ∀ t, g.Has t → act t → g.Has (lead t.blk (slot t)) ∧ act (lead t.blk (slot t)) ∧ leader (lead t.blk (slot t)) ∧ (lead t.blk (slot t)).blk = t.blk ∧ slot (lead t.blk (slot t)) = slot t)
    (hout : ∀ t u, g.Has t → act t → leader t → g.Has u → act u → leader u → out t = out u → t = u)
    (hsize : dst'.size = dst.size)
    (hframe : ∀ x, (∀ t, g.Has t → act t → leader t → 0 < (((g.blockL act t.blk).filter fun u => slot u = slot t).map fun u => v u ^ 2).sum → out t ≠ x) → dst'.data x = dst.data x)
    (hval : ∀ t, g.Has t → act t → leader t → 0 < (((g.blockL act t.blk).filter fun u => slot u = slot t).map fun u => v u ^ 2).sum → ∃ y, out t < dst.size ∧ (beta ≠ 0 → dst.rd (out t) = .ok y) ∧
      dst'.rd (out t) = .ok (Real.sqrt ((beta * y) ^ 2 + alpha ^ 2 * (((g.blockL act t.blk).filter fun u => slot u = slot t).map fun u => v u ^ 2).sum))) : g.Gives srcs dst dst' := by
  classical
  set m0 := g.mem (taskBufs dst srcs) with hm0
  let S : Tid → ℝ := fun t => (((g.blockL act t.blk).filter fun u => slot u = slot t).map fun u => v u ^ 2).sum
  have hS0 : ∀ t, 0 ≤ S t := fun t => List.sum_nonneg fun x hx => by
    obtain ⟨u, _, rfl⟩ := List.mem_map.1 hx
    exact sq_nonneg _
  have hSpos : ∀ t u, t ∈ g.blockL act t.blk → u ∈ g.blockL act t.blk → slot u = slot t → 0 < v u → 0 < S t := by
    intro t u ht hu e hp
    refine lt_of_lt_of_le (pow_pos hp 2) (List.single_le_sum (fun x hx => ?_) _ (List.mem_map.2 ⟨u, List.mem_filter.2 ⟨hu, by simpa using e⟩, rfl⟩))
    obtain ⟨u, _, rfl⟩ := List.mem_map.1 hx
    exact sq_nonneg _
  let W : Dim3 → Loc → Prop := fun b l => l.1 = .shared b ∨ ∃ t, g.Has t ∧ act t ∧ leader t ∧ 0 < S t ∧ t.blk = b ∧ l = (.glob 0, out t)
  let Post : Dim3 → Mem ℝ → Prop := fun b m => ∀ t, g.Has t → act t → leader t → 0 < S t → t.blk = b → m.rd (.glob 0, out t) = dst'.rd (out t)
  have hstart : ∀ b, ∀ t ∈ g.blockL act b, g.start t = pre t fun s => normTail1 t.blk (slot t) (out t) (leader t) alpha beta s := by
    intro b t ht
    have ht := Launch.mem_blockL.1 ht
    unfold Launch.start
    rw [if_pos ⟨hv, ht.2.1⟩, hbody t ht.2.1, if_pos ht.2.2]
  refine Launch.gives_of_works (Post := Post) (W := W) (Launch.works_of_phases (act := act) (taskBufs dst srcs) ?_ W SrcLoc ?_ ?_ Post ?_ 4 fun b => ?_) ?_ hsize ?_ ?_
  · intro t ht
    unfold Launch.start
    split
    swap
    · rfl
    rename_i h
    rw [hbody t h.2, if_neg fun h' => ht ⟨h.2, h'⟩]
  · rintro b b' l hb (h | ⟨t, h1, h2, h3, h4, h5, rfl⟩) (h' | ⟨u, g1, g2, g3, g4, g5, h'⟩)
    · rw [h] at h'; cases h'; exact hb rfl
    · subst h'; cases h
    · cases h'
    · have := hout t u h1 h2 h3 g1 g2 g3 (by simpa using h')
      subst this
      exact hb (h5.symm.trans g5)
  · rintro b l (h | ⟨t, h1, h2, h3, h4, h5, rfl⟩) ⟨j, hj⟩
    · rw [h] at hj; cases hj
    · cases hj
  · intro b m m1 hag hp t h1 h2 h3 h4 h5
    rw [hag.1 _ (Or.inl (Or.inr ⟨t, h1, h2, h3, h4, h5, rfl⟩))]
    exact hp t h1 h2 h3 h4 h5
  · set L := g.blockL act b with hLdef
    have hL : L.Nodup := Launch.blockL_nodup
    have hmem : ∀ t ∈ L, t.blk = b ∧ g.Has t ∧ act t := fun t ht => Launch.mem_blockL.1 ht
    have hsl : ∀ t ∈ L, slot t < 64 := fun t ht => hslot t (hmem t ht).2.1 (hmem t ht).2.2
    have hsh0 : (m0 (.shared b)).size = 128 := hshared
    let R4 : Tid → Prog ℝ := fun t => normTail4 b (slot t) (out t) (leader t) alpha beta
    let R3 : Tid → Prog ℝ := fun t => normTail3 b (slot t) (out t) (leader t) alpha beta (v t)
    let R2 : Tid → Prog ℝ := fun t => normTail2 b (slot t) (out t) (leader t) alpha beta (v t)
    -- phase 1
    let c1 : Cls ℝ := ⟨fun t l => t ∈ L ∧ leader t ∧ (l = (.shared b, slot t) ∨ l = (.shared b, 64 + slot t)), SrcLoc, fun _ => False, fun _ => False, fun _ => 0⟩
    have hc1 : c1.Ok := by
      refine ⟨?_, ?_, ?_, ?_, ?_, ?_, ?_, ?_, ?_⟩ <;> try (intro l h; exact h.elim)
      · rintro t u l hne ⟨h1, h2, h3⟩ ⟨g1, g2, g3⟩
        have e := hmem t h1
        have e' := hmem u g1
        refine hne (hlead t u e.2.1 e.2.2 h2 e'.2.1 e'.2.2 g2 (e.1.trans e'.1.symm) ?_)
        have a1 := hsl t h1
        have a2 := hsl u g1
        rcases h3 with rfl | rfl <;> rcases g3 with h | h <;> simp only [Prod.mk.injEq, true_and] at h <;> omega
      · rintro t l ⟨h1, h2, rfl | rfl⟩ ⟨j, hj⟩ <;> cases hj
      · rintro t l _ h; exact h
      · rintro t l _ h; exact h
    refine BlockOk.phase hL c1 hc1 ⟨?_, ?_, ?_, ?_⟩ ?_ ?_ (fun t => .sync (R2 t))
      (fun K m => (∀ t ∈ K, leader t → m.rd (.shared b, slot t) = .ok (v t) ∧ m.rd (.shared b, 64 + slot t) = .ok 0) ∧ (∀ l : Loc, l.1 ≠ .shared b → m.rd l = m0.rd l) ∧
        (∀ t ∈ K, t ∈ L) ∧ ∀ sp, (m sp).size = (m0 sp).size) ?_ ?_ ?_
    · rintro t l ⟨_, _, rfl | rfl⟩ <;> exact Or.inl rfl
    · intro l h; exact h.elim
    · intro l h; exact h.elim
    · intro l h; exact Or.inr h
    · intro t ht
      rw [hstart b t ht]
      refine (hpre t (hmem t ht).2.1 (hmem t ht).2.2).foot c1 t _ (fun l h => h) ?_
      rw [(hmem t ht).1]
      unfold normTail1
      by_cases h : leader t
      · rw [if_pos h]
        exact ⟨⟨ht, h, Or.inl rfl⟩, ⟨ht, h, Or.inr rfl⟩, trivial⟩
      · rw [if_neg h]; trivial
    · intro l h; exact h.elim
    · exact ⟨by simp, fun _ _ => rfl, by simp, fun _ => rfl⟩
    · rintro K t m ht hK ⟨i1, i2, i2', i3⟩
      rw [hstart b t ht]
      refine (hpre t (hmem t ht).2.1 (hmem t ht).2.2).wp _ _ _ m (fun l hl => i2 l ?_) ?_
      · rintro h; obtain ⟨j, hj⟩ := hl; rw [h] at hj; cases hj
      rw [(hmem t ht).1]
      unfold normTail1
      have hsub : ∀ u ∈ t :: K, u ∈ L := fun u hu => (List.mem_cons.1 hu).elim (fun e => e ▸ ht) (i2' u)
      have hts := hsl t ht
      by_cases h : leader t
      · rw [if_pos h]
        obtain ⟨m', w1, w2, w3, w4⟩ := Mem.can_wr (m := m) (l := (.shared b, slot t)) (by rw [i3, hsh0]; exact (by omega : slot t < 128)) (v t)
        obtain ⟨m'', x1, x2, x3, x4⟩ := Mem.can_wr (m := m') (l := (.shared b, 64 + slot t)) (by rw [w4, i3, hsh0]; exact (by omega : 64 + slot t < 128)) (0 : ℝ)
        refine ⟨m', w1, m'', x1, rfl, ?_, ?_, hsub, fun sp => (x4 sp).trans ((w4 sp).trans (i3 sp))⟩
        · intro u hu hl
          have hus := hsl u (hsub u hu)
          by_cases e : u = t
          · subst e
            exact ⟨by rw [x3 _ (by simp), w2], x2⟩
          · have hne : slot u ≠ slot t := fun e' => e (hlead u t (hmem u (hsub u hu)).2.1 (hmem u (hsub u hu)).2.2 hl (hmem t ht).2.1 (hmem t ht).2.2 h
              ((hmem u (hsub u hu)).1.trans (hmem t ht).1.symm) e')
            obtain ⟨q1, q2⟩ := i1 u ((List.mem_cons.1 hu).resolve_left e) hl
            constructor
            · rw [x3 _ (by simp only [ne_eq, Prod.mk.injEq, true_and]; omega), w3 _ (by simpa using hne), q1]
            · rw [x3 _ (by simpa using hne), w3 _ (by simp only [ne_eq, Prod.mk.injEq, true_and]; omega), q2]
        · intro l hl
          rw [x3 _ (by rintro rfl; exact hl rfl), w3 _ (by rintro rfl; exact hl rfl), i2 l hl]
      · rw [if_neg h]
        refine ⟨rfl, ?_, i2, hsub, i3⟩
        intro u hu hl
        rcases List.mem_cons.1 hu with rfl | hu
        · exact (h hl).elim
        · exact i1 u hu hl
    rintro K1 m1 hK1 ⟨i1, i2, -, i3⟩
    have hlL : ∀ t ∈ L, lead b (slot t) ∈ L ∧ slot (lead b (slot t)) = slot t ∧ leader (lead b (slot t)) := by
      intro t ht
      have e := hmem t ht
      obtain ⟨u1, u2, u3, u4, u5⟩ := hex t e.2.1 e.2.2
      rw [e.1] at u1 u2 u3 u4 u5
      exact ⟨Launch.mem_blockL.2 ⟨u4, u1, u2⟩, u5, u3⟩
    have i1' : ∀ t ∈ L, m1.rd (.shared b, slot t) = .ok (v (lead b (slot t))) ∧ m1.rd (.shared b, 64 + slot t) = .ok 0 := by
      intro t ht
      obtain ⟨u1, u2, u3⟩ := hlL t ht
      have := i1 _ (hK1.mem_iff.2 u1) u3
      rw [u2] at this
      exact this
    -- phase 2
    let c2 : Cls ℝ := ⟨fun _ _ => False, fun _ => False, fun _ => False, fun l => ∃ t ∈ L, l = (.shared b, slot t), fun l => v (lead b l.2)⟩
    have hc2 : c2.Ok := by
      refine ⟨?_, ?_, ?_, ?_, ?_, ?_, ?_, ?_, ?_⟩ <;> try (intro l h; exact h.elim)
      · intro t u l _ h; exact h.elim
      · intro t l h; exact h.elim
      · intro t l h; exact h.elim
      · intro t l h; exact h.elim
      · intro l _ h; exact h
      · intro l _
        exact ⟨fun a => by by_contra hc; exact lt_irrefl a ((ltb_real a a).1 (by simpa only [Bool.not_eq_false] using hc)), fun x y z h1 h2 => by simp only [ltb_real] at *; exact lt_trans h1 h2⟩
    refine BlockOk.phase hL c2 hc2 ⟨?_, ?_, ?_, ?_⟩ ?_ ?_ (fun t => .sync (R3 t))
      (fun K m => (∀ t ∈ L, ∃ M, m.rd (.shared b, slot t) = .ok M ∧ v (lead b (slot t)) ≤ M ∧ (∃ u ∈ L, slot u = slot t ∧ M = v u) ∧ ∀ u ∈ K, slot u = slot t → 0 < v u → 0 < M) ∧
        (∀ t ∈ L, m.rd (.shared b, 64 + slot t) = .ok 0) ∧ (∀ l : Loc, l.1 ≠ .shared b → m.rd l = m0.rd l) ∧ ∀ sp, (m sp).size = (m0 sp).size) ?_ ?_ ?_
    · intro t l h; exact h.elim
    · intro l h; exact h.elim
    · rintro l ⟨t, ht, rfl⟩; exact Or.inl rfl
    · intro l h; exact h.elim
    · intro t ht; exact ⟨⟨t, ht, rfl⟩, trivial⟩
    · rintro l ⟨t, ht, rfl⟩; exact (i1' t ht).1
    · refine ⟨fun t ht => ⟨_, (i1' t ht).1, le_refl _, ⟨_, (hlL t ht).1, (hlL t ht).2.1, rfl⟩, by simp⟩, fun t ht => (i1' t ht).2, i2, i3⟩
    · rintro K t m ht hK ⟨j1, j1', j2, j3⟩
      have hts := hsl t ht
      obtain ⟨x, hx, hx1, hx2, hx3⟩ := j1 t ht
      refine ⟨x, hx, fun hlt => ?_, fun hor => ?_⟩
      · simp only [ltb_real, c2] at hlt
        obtain ⟨m', w1, w2, w3, w4⟩ := Mem.can_wr (m := m) (l := (.shared b, slot t)) (by rw [j3, hsh0]; exact (by omega : slot t < 128)) (v t)
        refine ⟨m', w1, rfl, fun u hu => ?_, fun u hu => ?_, fun l hl => ?_, fun sp => (w4 sp).trans (j3 sp)⟩
        · by_cases e : slot u = slot t
          · refine ⟨v t, by rw [e, w2], by rw [e]; exact hlt.le, ⟨t, ht, e.symm, rfl⟩, fun _ _ _ _ => lt_of_le_of_lt (hv0 _) hlt⟩
          · obtain ⟨M, a1, a2, a3, a4⟩ := j1 u hu
            refine ⟨M, by rw [w3 _ (by simpa using e), a1], a2, a3, fun w hw he hp => ?_⟩
            rcases List.mem_cons.1 hw with rfl | hw
            · exact (e he.symm).elim
            · exact a4 w hw he hp
        · rw [w3 _ (by simp only [ne_eq, Prod.mk.injEq, true_and]; omega), j1' u hu]
        · rw [w3 _ (by rintro rfl; exact hl rfl), j2 l hl]
      · refine ⟨rfl, fun u hu => ?_, j1', j2, j3⟩
        obtain ⟨M, a1, a2, a3, a4⟩ := j1 u hu
        refine ⟨M, a1, a2, a3, fun w hw he hp => ?_⟩
        rcases List.mem_cons.1 hw with rfl | hw
        · have hMx : M = x := by
            rw [← he, hx] at a1
            cases a1
            rfl
          subst hMx
          have hb0 := hv0 (lead b (slot w))
          rcases hor with h | h
          · simp only [c2] at h
            exact lt_of_le_of_lt hb0 (lt_of_le_of_ne hx1 (Ne.symm h))
          · have h : ¬ v (lead b (slot w)) < v w := by
              intro h'
              have : FP.ltb (c2.base (.shared b, slot w)) (v w) = true := by simpa [c2] using h'
              rw [h] at this
              cases this
            linarith
        · exact a4 w hw he hp
    rintro K2 m2 hK2 ⟨j1, j1', j2, j3⟩
    have j4 : ∀ t ∈ L, ∃ M, m2.rd (.shared b, slot t) = .ok M ∧ 0 ≤ M ∧ (0 < M ↔ 0 < S t) := by
      intro t ht
      obtain ⟨M, a1, a2, ⟨u, hu, hus, rfl⟩, a4⟩ := j1 t ht
      have htb := (hmem t ht).1
      refine ⟨_, a1, hv0 _, fun h => hSpos t u (by rw [htb]; exact ht) (by rw [htb]; exact hu) hus h, fun h => ?_⟩
      by_contra hn
      have hz : ∀ w ∈ L, slot w = slot t → v w = 0 := by
        intro w hw hws
        by_contra hne
        exact hn (a4 w (hK2.mem_iff.2 hw) hws (lt_of_le_of_ne (hv0 w) (Ne.symm hne)))
      have : S t = 0 := by
        refine List.sum_eq_zero fun x hx => ?_
        obtain ⟨w, hw, rfl⟩ := List.mem_map.1 hx
        have hw := List.mem_filter.1 hw
        rw [htb] at hw
        rw [hz w hw.1 (by simpa using hw.2)]
        norm_num
      linarith
    choose! Mx hM1 hM2 hM3 using j4
    have hMs : ∀ t ∈ L, ∀ u ∈ L, slot t = slot u → Mx t = Mx u := by
      intro t ht u hu e
      have h1 := hM1 t ht
      rw [e, hM1 u hu] at h1
      exact (Except.ok.inj h1).symm
    -- phase 3
    let c3 : Cls ℝ := ⟨fun _ _ => False, fun l => l.1 = .shared b ∧ l.2 < 64, fun l => l.1 = .shared b ∧ 64 ≤ l.2, fun _ => False, fun _ => 0⟩
    have hc3 : c3.Ok := by
      refine ⟨?_, ?_, ?_, ?_, ?_, ?_, ?_, ?_, ?_⟩ <;> try (intro l h; exact h.elim)
      · intro t u l _ h; exact h.elim
      · intro t l h; exact h.elim
      · intro t l h; exact h.elim
      · intro t l h; exact h.elim
      · rintro l ⟨_, h⟩ ⟨_, h'⟩; exact absurd h (by omega)
      · intro l _ h; exact h
      · intro l _ x v w; ring
    refine BlockOk.phase hL c3 hc3 ⟨?_, ?_, ?_, ?_⟩ ?_ ?_ (fun t => if 0 < Mx t then .sync (R4 t) else .done)
      (fun K m => (∀ t ∈ L, m.rd (.shared b, 64 + slot t) = .ok ((K.filter fun u => slot u = slot t).map fun u => if 0 < Mx u then v u / Mx u * (v u / Mx u) else 0).sum) ∧
        (∀ l : Loc, ¬ (l.1 = .shared b ∧ 64 ≤ l.2) → m.rd l = m2.rd l) ∧ ∀ sp, (m sp).size = (m0 sp).size) ?_ ?_ ?_
    · intro t l h; exact h.elim
    · intro l h; exact Or.inl h.1
    · intro l h; exact h.elim
    · intro l h; exact Or.inl (Or.inl h.1)
    · intro t ht
      change (R3 t).FootB c3 m2 t
      refine Or.inr ⟨⟨rfl, hsl t ht⟩, fun M _ => ?_⟩
      dsimp only
      split
      · exact Or.inr ⟨⟨rfl, hsl t ht⟩, fun M _ => ⟨Or.inr ⟨rfl, by simp⟩, trivial⟩⟩
      · trivial
    · intro l h; exact h.elim
    · exact ⟨fun t ht => by simpa using j1' t ht, fun _ _ => rfl, j3⟩
    · rintro K t m ht hK ⟨k1, k2, k3⟩
      have hts := hsl t ht
      change (R3 t).wp _ _ m
      have hrd : m.rd (.shared b, slot t) = .ok (Mx t) := by rw [k2 _ (by simp only [not_and]; omega), hM1 t ht]
      refine ⟨Mx t, hrd, ?_⟩
      dsimp only
      by_cases hp : 0 < Mx t
      · rw [if_pos (by simpa using hp)]
        obtain ⟨m', w1, w2, w3, w4⟩ := Mem.can_wr (m := m) (l := (.shared b, 64 + slot t)) (by rw [k3, hsh0]; exact (by omega : 64 + slot t < 128))
          (((K.filter fun u => slot u = slot t).map fun u => if 0 < Mx u then v u / Mx u * (v u / Mx u) else 0).sum + v t / Mx t * (v t / Mx t))
        refine ⟨Mx t, hrd, _, m', k1 t ht, w1, ?_, ?_, ?_, fun sp => (w4 sp).trans (k3 sp)⟩
        · rw [if_pos hp]
        · intro u hu
          by_cases e : slot u = slot t
          · rw [e, w2, List.filter_cons_of_pos (by simp), List.map_cons, List.sum_cons, if_pos hp, add_comm]
          · rw [w3 _ (by simpa using e), k1 u hu, List.filter_cons_of_neg (by simpa using Ne.symm e)]
        · intro l hl
          rw [w3 _ (by rintro rfl; exact hl ⟨rfl, by simp⟩), k2 l hl]
      · rw [if_neg (by simpa using hp)]
        refine ⟨by rw [if_neg hp], fun u hu => ?_, k2, k3⟩
        rw [k1 u hu]
        by_cases e : slot u = slot t
        · rw [e, List.filter_cons_of_pos (by simp), List.map_cons, List.sum_cons, if_neg hp, zero_add]
        · rw [List.filter_cons_of_neg (by simpa using Ne.symm e)]
    rintro K3 m3 hK3 ⟨k1, k2, k3⟩
    have hN : ∀ t ∈ L, 0 < Mx t → ∃ q, m3.rd (.shared b, 64 + slot t) = .ok q ∧ Mx t * Real.sqrt q = Real.sqrt (S t) := by
      intro t ht hp
      refine ⟨_, k1 t ht, ?_⟩
      have e1 : ((K3.filter fun u => slot u = slot t).map fun u => if 0 < Mx u then v u / Mx u * (v u / Mx u) else 0) =
          ((K3.filter fun u => slot u = slot t).map v).map fun x => x / Mx t * (x / Mx t) := by
        rw [List.map_map]
        refine List.map_congr_left fun u hu => ?_
        have hu := List.mem_filter.1 hu
        have : Mx u = Mx t := hMs u (hK3.mem_iff.1 hu.1) t ht (by simpa using hu.2)
        rw [this, if_pos hp]
        rfl
      rw [e1, scaled_norm hp, List.map_map]
      congr 1
      simp only [S]
      rw [(hmem t ht).1, ((hK3.filter _).map _).sum_eq]
      rfl
    -- phase 4
    let c4 : Cls ℝ := ⟨fun t l => t ∈ L ∧ leader t ∧ 0 < S t ∧ l = (.glob 0, out t), fun l => l.1 = .shared b, fun _ => False, fun _ => False, fun _ => 0⟩
    have hc4 : c4.Ok := by
      refine ⟨?_, ?_, ?_, ?_, ?_, ?_, ?_, ?_, ?_⟩ <;> try (intro l h; exact h.elim)
      · rintro t u l hne ⟨h1, h2, h3, rfl⟩ ⟨g1, g2, g3, h'⟩
        have e := hmem t h1
        have e' := hmem u g1
        exact hne (hout t u e.2.1 e.2.2 h2 e'.2.1 e'.2.2 g2 (by simpa using h'))
      · rintro t l ⟨h1, h2, h3, rfl⟩ h; cases h
      · rintro t l _ h; exact h
      · rintro t l _ h; exact h
    refine BlockOk.phase hL c4 hc4 ⟨?_, ?_, ?_, ?_⟩ ?_ ?_ (fun _ => .done)
      (fun K m => (∀ t ∈ K, t ∈ L → leader t → 0 < S t → m.rd (.glob 0, out t) = dst'.rd (out t)) ∧ (∀ t ∈ L, t ∉ K → leader t → 0 < S t → m.rd (.glob 0, out t) = m0.rd (.glob 0, out t)) ∧
        (∀ l : Loc, l.1 = .shared b → m.rd l = m3.rd l) ∧ ∀ sp, (m sp).size = (m0 sp).size) ?_ ?_ ?_
    · rintro t l ⟨h1, h2, h3, rfl⟩
      have e := hmem t h1
      exact Or.inr ⟨t, e.2.1, e.2.2, h2, h3, e.1, rfl⟩
    · intro l h; exact h.elim
    · intro l h; exact h.elim
    · intro l h; exact Or.inl (Or.inl h)
    · intro t ht
      by_cases hp : 0 < Mx t
      · rw [if_pos hp]
        change (R4 t).FootB c4 m3 t
        simp only [R4, normTail4]
        have hS := (hM3 t ht).1 hp
        by_cases h : leader t
        · rw [if_pos h]
          refine Or.inr ⟨rfl, fun s _ => Or.inr ⟨rfl, fun q _ => ?_⟩⟩
          dsimp only
          split
          · exact ⟨⟨ht, h, hS, rfl⟩, trivial⟩
          · exact Or.inl ⟨⟨ht, h, hS, rfl⟩, fun y => ⟨⟨ht, h, hS, rfl⟩, trivial⟩⟩
        · rw [if_neg h]; trivial
      · rw [if_neg hp]; trivial
    · intro l h; exact h.elim
    · refine ⟨by simp, fun t ht _ _ _ => ?_, fun _ _ => rfl, k3⟩
      rw [k2 _ (by simp), j2 _ (by simp)]
    · rintro K t m ht hK ⟨l1, l2, l3, l4⟩
      have skip : ¬ (leader t ∧ 0 < S t) → ((∀ u ∈ t :: K, u ∈ L → leader u → 0 < S u → m.rd (.glob 0, out u) = dst'.rd (out u)) ∧
          (∀ u ∈ L, u ∉ t :: K → leader u → 0 < S u → m.rd (.glob 0, out u) = m0.rd (.glob 0, out u)) ∧ (∀ l : Loc, l.1 = .shared b → m.rd l = m3.rd l) ∧ ∀ sp, (m sp).size = (m0 sp).size) := by
        intro hn
        refine ⟨fun u hu huL hl hS => ?_, fun u huL hu hl => l2 u huL (fun h => hu (by simp [h])) hl, l3, l4⟩
        rcases List.mem_cons.1 hu with rfl | hu
        · exact (hn ⟨hl, hS⟩).elim
        · exact l1 u hu huL hl hS
      by_cases hp : 0 < Mx t
      swap
      · rw [if_neg hp]
        exact ⟨rfl, skip fun h => hp ((hM3 t ht).2 h.2)⟩
      rw [if_pos hp]
      change (R4 t).wp _ _ m
      simp only [R4, normTail4]
      have hS := (hM3 t ht).1 hp
      by_cases h : leader t
      swap
      · rw [if_neg h]
        exact ⟨rfl, skip fun h' => h h'.1⟩
      rw [if_pos h]
      obtain ⟨q, hq, hqn⟩ := hN t ht hp
      refine ⟨Mx t, by rw [l3 _ rfl, k2 _ (by have := hsl t ht; simp only [not_and]; omega), hM1 t ht], q, by rw [l3 _ rfl, hq], ?_⟩
      dsimp only
      obtain ⟨y, y1, y2, y3⟩ := hval t (hmem t ht).2.1 (hmem t ht).2.2 h hS
      obtain ⟨m', w1, w2, w3, w4⟩ := Mem.can_wr (m := m) (l := (.glob 0, out t)) (by rw [l4]; exact y1) (Real.sqrt ((beta * y) ^ 2 + alpha ^ 2 * S t))
      have fin : (∀ u ∈ t :: K, u ∈ L → leader u → 0 < S u → m'.rd (.glob 0, out u) = dst'.rd (out u)) ∧
          (∀ u ∈ L, u ∉ t :: K → leader u → 0 < S u → m'.rd (.glob 0, out u) = m0.rd (.glob 0, out u)) ∧ (∀ l : Loc, l.1 = .shared b → m'.rd l = m3.rd l) ∧ ∀ sp, (m' sp).size = (m0 sp).size := by
        refine ⟨fun u hu huL hl hSu => ?_, fun u huL hu hl hSu => ?_, fun l hl => ?_, fun sp => (w4 sp).trans (l4 sp)⟩
        · by_cases e : u = t
          · subst e; rw [w2, y3]
          · have hne : out u ≠ out t := fun e' => e (hout u t (hmem u huL).2.1 (hmem u huL).2.2 hl (hmem t ht).2.1 (hmem t ht).2.2 h e')
            rw [w3 _ (by simpa using hne)]
            exact l1 u ((List.mem_cons.1 hu).resolve_left e) huL hl hSu
        · have e : u ≠ t := by rintro rfl; exact hu (by simp)
          have hne : out u ≠ out t := fun e' => e (hout u t (hmem u huL).2.1 (hmem u huL).2.2 hl (hmem t ht).2.1 (hmem t ht).2.2 h e')
          rw [w3 _ (by simpa using hne)]
          exact l2 u huL (fun h => hu (by simp [h])) hl hSu
        · rw [w3 _ (by rintro rfl; cases hl), l3 l hl]
      by_cases hb : beta = 0
      · rw [if_pos (by simpa using hb)]
        refine ⟨m', ?_, rfl, fin⟩
        rw [← w1, sqrt_real, hqn, fabs_real, hb]
        congr 1
        rw [zero_mul, zero_pow (by norm_num), zero_add, Real.sqrt_mul (sq_nonneg _), Real.sqrt_sq_eq_abs]
      · rw [if_neg (by simpa using hb)]
        refine ⟨y, ?_, m', ?_, rfl, fin⟩
        · rw [l2 t ht hK h hS]
          exact y2 hb
        · rw [← w1, sqrt_real, hqn, hypot_real, mul_pow alpha, Real.sq_sqrt (hS0 t)]
    rintro K4 m4 hK4 ⟨l1, l2, l3, l4⟩
    refine ⟨fun t _ => rfl, fun t h1 h2 h3 h4 h5 => ?_⟩
    have htL : t ∈ L := Launch.mem_blockL.2 ⟨h5, h1, h2⟩
    exact l1 t (hK4.mem_iff.2 htL) htL h3 h4
  · rintro b l (h | ⟨t, _, _, _, _, _, rfl⟩)
    · exact Or.inr ⟨b, h⟩
    · exact Or.inl rfl
  · intro x hx
    refine hframe x fun t h1 h2 h3 h4 h5 => hx t.blk (Or.inr ⟨t, h1, h2, h3, h4, rfl, by rw [h5]⟩)
  · rintro m b x hp (h | ⟨t, h1, h2, h3, h4, h5, h6⟩)
    · cases h
    · have h6 : x = out t := by simpa using h6
      subst h6
      obtain ⟨y, _, _, hy⟩ := hval t h1 h2 h3 h4
      exact ⟨hp b t h1 h2 h3 h4 h5, _, hy⟩
end

/-! ### `norm_slice` -/

theorem storeNorm_frame {alpha beta : ℝ} {i : Nat} {p : NormAcc ℝ} {e e' : Buf ℝ} (h : storeNorm alpha beta i p e = .ok e') : e'.size = e.size ∧ (∀ x, x ≠ i → e'.data x = e.data x) ∧
    i < e.size ∧ (beta ≠ 0 → ∃ y, e.rd i = .ok y) := by
  have key : ∀ v, e.wr i v = .ok e' → e'.size = e.size ∧ (∀ x, x ≠ i → e'.data x = e.data x) ∧ i < e.size :=
    fun v h => ⟨(Buf.wr_eq_ok h).2.1, (Buf.wr_eq_ok h).2.2.1, (Buf.wr_eq_ok h).1⟩
  unfold storeNorm at h
  by_cases hb : beta = 0
  · dsimp only at h
    rw [if_pos (by simpa using hb)] at h
    obtain ⟨a, b, c⟩ := key _ h
    exact ⟨a, b, c, fun h => (h hb).elim⟩
  · dsimp only at h
    rw [if_neg (by simpa using hb)] at h
    obtain ⟨r, hr, h⟩ := M.bind_eq_ok.1 h
    have : e'.size = e.size ∧ (∀ x, x ≠ i → e'.data x = e.data x) ∧ i < e.size := by
      split at h
      · split at h
        · exact key _ h
        · exact key _ h
      · exact key _ h
    exact ⟨this.1, this.2.1, this.2.2, fun _ => ⟨r, hr⟩⟩

noncomputable section
/-- The body of `norm_slice` on GPU. -/
def normBody (m k tz : Nat) (alpha beta : ℝ) (t : Tid) (slot i0 i1 : Nat) : PM ℝ Unit := do
    let sum ← forP (strideCount t.thr.z k tz) (fun q sum => do
      let x ← ld 1 (i1*(m*k) + i0 + (t.thr.z + q*tz)*m)
      pure (FP.hypot sum x)) (0 : ℝ)
    if t.thr.z = 0 then do
      sst t.blk slot sum
      sst t.blk (64 + slot) 0
    else pure ()
    syncthreads
    sraise t.blk slot sum
    syncthreads
    let bm ← sld t.blk slot
    if FP.ltb 0 bm then do
      let bm ← sld t.blk slot
      let sum := sum / bm
      sadd t.blk (64 + slot) (sum * sum)
      syncthreads
      if t.thr.z = 0 then do
        let sum ← sld t.blk slot
        let bs ← sld t.blk (64 + slot)
        let sum := sum * FP.sqrt bs
        if FP.eqb beta 0 then st 0 (i1*m + i0) (FP.fabs alpha * sum)
        else do
          let result ← ld 0 (i1*m + i0)
          st 0 (i1*m + i0) (FP.hypot (beta * result) (alpha * sum))
      else pure ()
    else pure ()

theorem normBody_prog (m k tz : Nat) (alpha beta : ℝ) (t : Tid) (slot i0 i1 : Nat) : (normBody m k tz alpha beta t slot i0 i1).prog =
    forP (strideCount t.thr.z k tz) (fun q sum => ld 1 (i1*(m*k) + i0 + (t.thr.z + q*tz)*m) >>= fun x => pure (FP.hypot sum x)) (0 : ℝ)
      (fun s => normTail1 t.blk slot (i1*m + i0) (t.thr.z = 0) alpha beta s) := by
  have e4 : ∀ s' : ℝ, (if t.thr.z = 0 then (do
        let sum ← sld t.blk slot
        let bs ← sld t.blk (64 + slot)
        let sum := sum * FP.sqrt bs
        if FP.eqb beta 0 then st 0 (i1*m + i0) (FP.fabs alpha * sum)
        else do
          let result ← ld 0 (i1*m + i0)
          st 0 (i1*m + i0) (FP.hypot (beta * result) (alpha * sum)) : PM ℝ Unit)
      else pure ()).prog = normTail4 t.blk slot (i1*m + i0) (t.thr.z = 0) alpha beta := by
    intro s'
    unfold normTail4
    by_cases h : t.thr.z = 0
    · rw [if_pos h, if_pos h]
      change Prog.rd _ _ = _
      congr 1
      funext s
      change Prog.rd _ _ = _
      congr 1
      funext bs
      split <;> rfl
    · rw [if_neg h, if_neg h]; rfl
  have e3 : ∀ s : ℝ, (do
      let bm ← sld t.blk slot
      if FP.ltb 0 bm then do
        let bm ← sld t.blk slot
        let sum := s / bm
        sadd t.blk (64 + slot) (sum * sum)
        syncthreads
        if t.thr.z = 0 then do
          let sum ← sld t.blk slot
          let bs ← sld t.blk (64 + slot)
          let sum := sum * FP.sqrt bs
          if FP.eqb beta 0 then st 0 (i1*m + i0) (FP.fabs alpha * sum)
          else do
            let result ← ld 0 (i1*m + i0)
            st 0 (i1*m + i0) (FP.hypot (beta * result) (alpha * sum))
        else pure ()
      else pure () : PM ℝ Unit).prog = normTail3 t.blk slot (i1*m + i0) (t.thr.z = 0) alpha beta s := by
    intro s
    unfold normTail3
    change Prog.rd _ _ = _
    congr 1
    funext bm
    dsimp only
    cases FP.ltb 0 bm with
    | true =>
      simp only [if_true]
      change Prog.rd _ _ = _
      congr 1
      funext bm
      change Prog.atomicAdd _ _ (Prog.sync _) = _
      congr 2
      exact e4 0
    | false => rfl
  unfold normBody
  change forP _ _ _ _ = _
  congr 1
  funext s
  unfold normTail1 normTail2
  dsimp only
  rw [← e3 s]
  by_cases h : t.thr.z = 0
  · rw [if_pos h]
    simp only [h, if_true]
    rfl
  · rw [if_neg h]
    simp only [h, if_false]
    rfl
end

section
variable {m n k : Nat} (hm : 0 < m ∧ m < 2^31) (hn : 0 < n ∧ n ≤ 8 * 65535) (hk : 0 < k ∧ k < 2^31)
include hm hn hk

open Classical in
theorem normSliceCuda_gives' {alpha beta : ℝ} {src dst dst' : Buf ℝ} (h : normSliceKernel m n k alpha src beta dst = .ok dst') :
    ∃ g, normSliceCuda m n k alpha beta = .ok g ∧ g.Gives [src] dst
      ⟨dst.size, fun x => if ∃ i1 i0, i1 < n ∧ i0 < m ∧ x = i1*m + i0 ∧ 0 < ∑ j ∈ range k, src.val (i1*(m*k) + i0 + j*m) ^ 2 then dst'.data x else dst.data x⟩ := by
  unfold normSliceKernel at h
  unfold normSliceCuda
  simp only [show ((16 : Int)) = ((16 : Nat) : Int) from rfl, dimOf_eq hk.2]
  have htz : 0 < dimOf k 16 ∧ dimOf k 16 ≤ 16 := ⟨dimOf_pos hk.1 (by omega), Nat.min_le_right _ _⟩
  revert htz
  generalize dimOf k 16 = tz
  intro htz
  refine ⟨_, sliceLaunch_eq (body := normBody m k tz alpha beta) hm hn, ?_⟩
  have hread : ∀ i1 i0 j, i1 < n → i0 < m → j < k → src.rd (i1*(m*k) + i0 + j*m) = .ok (src.val (i1*(m*k) + i0 + j*m)) := by
    intro i1 i0 j h1 h0 hj
    obtain ⟨a, b, hab⟩ := forN2_reads h i1 h1
    obtain ⟨a, b, hab⟩ := forN2_reads hab i0 h0
    obtain ⟨p, hp, _⟩ := M.bind_eq_ok.1 hab
    obtain ⟨x, hx⟩ := forN_reads hp j hj
    exact Buf.rd_val hx
  rw [forN2_items (fun i1 i0 dst => forN k (fun j p => src.rd (i1*(m*k) + i0 + j*m) >>= fun x => (.ok (normStep x p) : M (NormAcc ℝ))) (⟨0, 0, 0⟩ : NormAcc ℝ) >>=
    fun p => storeNorm (FP.fabs alpha) beta (i1*m + i0) p dst)] at h
  have hpos : ∀ {a b a' b' : Nat}, b < m → b' < m → a * m + b = a' * m + b' → a = a' ∧ b = b' := by
    intro a b a' b' hb hb' e
    have e1 := tid_eta (y := a) hb
    have e2 := tid_eta (y := a') hb'
    rw [Nat.add_comm, e, Nat.add_comm] at e1
    exact ⟨e1.1.symm.trans e2.1, e1.2.symm.trans e2.2⟩
  obtain ⟨s1, s2, s3⟩ := runItems_own (own := fun (p : Nat × Nat) x => p.1*m + p.2 = x) (List.Nodup.product List.nodup_range List.nodup_range)
    (fun i hi j hj hne x hx hy => hne (by
      have hi := mem_product_range.1 hi
      have hj := mem_product_range.1 hj
      have := hpos hi.2 hj.2 (hx.trans hy.symm)
      exact Prod.ext this.1 this.2)) (fun i _ d d' h => by
      obtain ⟨p, _, h⟩ := M.bind_eq_ok.1 h
      exact ⟨(storeNorm_frame h).1, fun x hx => (storeNorm_frame h).2.1 x fun e => hx e.symm⟩) h
  let Q : Nat → Nat → ℝ := fun i1 i0 => ∑ j ∈ range k, src.val (i1*(m*k) + i0 + j*m) ^ 2
  have hsum : ∀ t, (sliceG m n tz 128 (normBody m k tz alpha beta)).Has t → sliceI0 m t < m ∧ sliceI1 n t < n →
      ((((sliceG m n tz 128 (normBody m k tz alpha beta)).blockL (fun t => sliceI0 m t < m ∧ sliceI1 n t < n) t.blk).filter fun u => u.thr.x + dimOf m 8 * u.thr.y = t.thr.x + dimOf m 8 * t.thr.y).map
        fun u => Real.sqrt (∑ i ∈ (range k).filter (· % tz = u.thr.z), src.val (sliceI1 n u*(m*k) + sliceI0 m u + i*m) ^ 2) ^ 2).sum = Q (sliceI1 n t) (sliceI0 m t) := by
    intro t ht ha
    rw [((slice_perm ht ha).map _).sum_eq, List.map_map, list_sum_real]
    simp only [Q]
    rw [← sum_all_strided k htz.1]
    refine sum_congr rfl fun z _ => ?_
    simp only [Function.comp]
    rw [Real.sq_sqrt (sum_nonneg fun i _ => sq_nonneg _)]
    rfl
  refine blockNorm_gives (sliceG_valid hm hn htz) (act := fun t => sliceI0 m t < m ∧ sliceI1 n t < n) (slot := fun t => t.thr.x + dimOf m 8 * t.thr.y) (leader := fun t => t.thr.z = 0)
    (out := fun t => sliceI1 n t * m + sliceI0 m t) (lead := fun b s => ⟨b, ⟨s % dimOf m 8, s / dimOf m 8, 0⟩⟩)
    (pre := fun t => forP (strideCount t.thr.z k tz) (fun q sum => ld 1 (sliceI1 n t*(m*k) + sliceI0 m t + (t.thr.z + q*tz)*m) >>= fun x => pure (FP.hypot sum x)) (0 : ℝ))
    (v := fun t => Real.sqrt (∑ i ∈ (range k).filter (· % tz = t.thr.z), src.val (sliceI1 n t*(m*k) + sliceI0 m t + i*m) ^ 2)) (alpha := alpha) (beta := beta)
    ?_ ?_ (fun _ => Real.sqrt_nonneg _) rfl ?_ ?_ ?_ ?_ rfl ?_ ?_
  · intro t ht
    rw [sliceG_body hm hn ht, normBody_prog]
  · intro t ht ha
    have hz : t.thr.z < tz := ht.2.2.2.2.2
    have := reads_forP (m := (sliceG m n tz 128 (normBody m k tz alpha beta)).mem (taskBufs dst [src]))
      (g := fun q s => FP.hypot s (src.val (sliceI1 n t*(m*k) + sliceI0 m t + (t.thr.z + q*tz)*m))) (strideCount t.thr.z k tz)
      (f := fun q sum => ld 1 (sliceI1 n t*(m*k) + sliceI0 m t + (t.thr.z + q*tz)*m) >>= fun x => pure (FP.hypot sum x)) (fun q hq s => reads_bind (reads_ld (by
        rw [mem_rd_src]
        refine hread _ _ _ ha.2 ha.1 ?_
        exact ((mem_strided (n := k) hz (i := t.thr.z + q*tz)).1 (List.mem_map.2 ⟨q, List.mem_range.2 hq, rfl⟩)).1)) (reads_pure _ _)) (0 : ℝ)
    rw [foldP_hypot, sum_strided hz (fun i => src.val (sliceI1 n t*(m*k) + sliceI0 m t + i*m) ^ 2)] at this
    exact this
  · intro t ht ha
    exact slice_slot_lt ht
  · intro t u ht ha hl hu hua hul hb hs
    obtain ⟨e1, e2⟩ := slice_slot_inj ht hu hs
    refine slice_ext ht hu ?_ ?_ (hl.trans hul.symm)
    · simp only [sliceI0, e1, hb]
    · simp only [sliceI1, e2, hb]
  · intro t ht ha
    have e := tid_eta (y := t.thr.y) (show t.thr.x < dimOf m 8 from ht.2.2.2.1)
    rw [Nat.mul_comm] at e
    simp only [e.1, e.2]
    exact ⟨⟨ht.1, ht.2.1, ht.2.2.1, ht.2.2.2.1, ht.2.2.2.2.1, htz.1⟩, ha, trivial, trivial, trivial⟩
  · intro t u ht ha hl hu hua hul ho
    have := hpos ha.1 hua.1 ho
    exact slice_ext ht hu this.2 this.1 (hl.trans hul.symm)
  · intro y hy
    dsimp only
    rw [if_neg]
    rintro ⟨i1, i0, h1, h0, rfl, hQ⟩
    obtain ⟨b1, b2, b3⟩ := sliceTid_has (tz := tz) (shared := 128) (body := normBody m k tz alpha beta) hm hn h0 h1 htz.1
    have ha : sliceI0 m (sliceTid m n i0 i1 0) < m ∧ sliceI1 n (sliceTid m n i0 i1 0) < n := ⟨by rw [b2]; exact h0, by rw [b3]; exact h1⟩
    refine hy _ b1 ha rfl ?_ ?_
    · rw [hsum _ b1 ha, b2, b3]; exact hQ
    · rw [b2, b3]
  · intro t ht ha hl hQ
    rw [hsum t ht ha] at hQ ⊢
    obtain ⟨e, e', h4, h5, h6, h7⟩ := s3 (sliceI1 n t, sliceI0 m t) (mem_product_range.2 ⟨ha.2, ha.1⟩)
    obtain ⟨p, hp, h4⟩ := M.bind_eq_ok.1 h4
    obtain ⟨p', e1, hinv⟩ := normFold_real (k := k) (rd := fun j => src.rd (sliceI1 n t*(m*k) + sliceI0 m t + j*m)) (x := fun j => src.val (sliceI1 n t*(m*k) + sliceI0 m t + j*m))
      (fun j hj => hread _ _ j ha.2 ha.1 hj)
    have e1 := e1.symm.trans hp
    have e1 := Except.ok.inj e1
    subst e1
    obtain ⟨f1, f2, f3, f4⟩ := storeNorm_frame h4
    have hy : ∃ y, beta ≠ 0 → e.rd (sliceI1 n t * m + sliceI0 m t) = .ok y := by
      by_cases hb : beta = 0
      · exact ⟨0, fun h => (h hb).elim⟩
      · obtain ⟨y, hy⟩ := f4 hb
        exact ⟨y, fun _ => hy⟩
    obtain ⟨y, hy⟩ := hy
    refine ⟨y, h5 ▸ f3, fun hb => ?_, ?_⟩
    · rw [← hy hb]; exact (Buf.rd_congr h5 (h6 _ rfl)).symm
    · rw [fabs_real, storeNorm_real hinv f3 (fun hb => (Buf.rd_eq_ok (hy hb)).2)] at h4
      have h4 := Except.ok.inj h4
      refine Buf.rd_ok (h5 ▸ f3) ?_
      dsimp only
      rw [if_pos ⟨_, _, ha.2, ha.1, rfl, hQ⟩, h7 _ rfl, ← h4]
      simp [Buf.put, Q]

theorem normSliceCuda_gives {alpha beta : ℝ} {src dst dst' : Buf ℝ} (h : normSliceKernel m n k alpha src beta dst = .ok dst')
    (hne : ∀ i1 i0, i1 < n → i0 < m → ∃ j, j < k ∧ src.data (i1*(m*k) + i0 + j*m) ≠ some 0) : ∃ g, normSliceCuda m n k alpha beta = .ok g ∧ g.Gives [src] dst dst' := by
  classical
  obtain ⟨g, g1, g2⟩ := normSliceCuda_gives' hm hn hk h
  refine ⟨g, g1, ?_⟩
  have e : dst' = ⟨dst.size, fun x => if ∃ i1 i0, i1 < n ∧ i0 < m ∧ x = i1*m + i0 ∧ 0 < ∑ j ∈ range k, src.val (i1*(m*k) + i0 + j*m) ^ 2 then dst'.data x else dst.data x⟩ := by
    unfold normSliceKernel at h
    have hread : ∀ i1 i0 j, i1 < n → i0 < m → j < k → src.rd (i1*(m*k) + i0 + j*m) = .ok (src.val (i1*(m*k) + i0 + j*m)) := by
      intro i1 i0 j h1 h0 hj
      obtain ⟨a, b, hab⟩ := forN2_reads h i1 h1
      obtain ⟨a, b, hab⟩ := forN2_reads hab i0 h0
      obtain ⟨p, hp, _⟩ := M.bind_eq_ok.1 hab
      obtain ⟨x, hx⟩ := forN_reads hp j hj
      exact Buf.rd_val hx
    have hfr : ∀ i2 d d', forN m (fun i1 dst => do
        let p ← forN k (fun i0 p => do
          let x ← src.rd (i2*(m*k) + i1 + i0*m)
          .ok (normStep x p)) (⟨0, 0, 0⟩ : NormAcc ℝ)
        storeNorm (FP.fabs alpha) beta (i2*m + i1) p dst) d = .ok d' → d'.size = d.size ∧ ∀ x, (¬ ∃ i0, i0 < m ∧ x = i2*m + i0) → d'.data x = d.data x := by
      intro i2
      generalize hmm : m = mm
      intro d d' hd
      have : ∀ q, q ≤ mm → ∀ d', forN q (fun i1 dst => do
        let p ← forN k (fun i0 p => do
          let x ← src.rd (i2*(mm*k) + i1 + i0*mm)
          .ok (normStep x p)) (⟨0, 0, 0⟩ : NormAcc ℝ)
        storeNorm (FP.fabs alpha) beta (i2*mm + i1) p dst) d = .ok d' → d'.size = d.size ∧ ∀ x, (¬ ∃ i0, i0 < mm ∧ x = i2*mm + i0) → d'.data x = d.data x := by
        intro q
        induction q with
        | zero => intro _ d' hd; cases hd; exact ⟨rfl, fun _ _ => rfl⟩
        | succ q ih =>
          intro hq d' hd
          rw [forN_succ] at hd
          obtain ⟨d1, h1, h2⟩ := M.bind_eq_ok.1 hd
          obtain ⟨p, _, h2⟩ := M.bind_eq_ok.1 h2
          obtain ⟨i1, i2⟩ := ih (by omega) d1 h1
          have f := storeNorm_frame h2
          exact ⟨f.1.trans i1, fun x hx => (f.2.1 x fun e => hx ⟨q, by omega, e⟩).trans (i2 x hx)⟩
      exact this mm (le_refl _) d' hd
    have hfr2 : ∀ q, q ≤ n → ∀ d', forN q (fun i2 dst => forN m (fun i1 dst => do
        let p ← forN k (fun i0 p => do
          let x ← src.rd (i2*(m*k) + i1 + i0*m)
          .ok (normStep x p)) (⟨0, 0, 0⟩ : NormAcc ℝ)
        storeNorm (FP.fabs alpha) beta (i2*m + i1) p dst) dst) dst = .ok d' → d'.size = dst.size ∧ ∀ x, (¬ ∃ i1 i0, i1 < n ∧ i0 < m ∧ x = i1*m + i0) → d'.data x = dst.data x := by
      intro q
      induction q with
      | zero => intro _ d' hd; cases hd; exact ⟨rfl, fun _ _ => rfl⟩
      | succ q ih =>
        intro hq d' hd
        rw [forN_succ] at hd
        obtain ⟨d1, h1, h2⟩ := M.bind_eq_ok.1 hd
        obtain ⟨i1, i2⟩ := ih (by omega) d1 h1
        obtain ⟨f1, f2⟩ := hfr _ _ _ h2
        exact ⟨f1.trans i1, fun x hx => (f2 x fun ⟨i0, h0, e⟩ => hx ⟨q, i0, by omega, h0, e⟩).trans (i2 x hx)⟩
    obtain ⟨q1, q2⟩ := hfr2 n (le_refl _) dst' h
    obtain ⟨sz, da⟩ := dst'
    dsimp only at q1 q2
    subst q1
    refine congrArg (Buf.mk dst.size) (funext fun x => ?_)
    dsimp only
    split
    · rfl
    · rename_i hx
      refine q2 x fun ⟨i1, i0, h1, h0, e⟩ => hx ⟨i1, i0, h1, h0, e, ?_⟩
      obtain ⟨j, hj, hne⟩ := hne i1 i0 h1 h0
      refine sum_pos' (fun j _ => sq_nonneg _) ⟨j, mem_range.2 hj, ?_⟩
      have : src.val (i1*(m*k) + i0 + j*m) ≠ 0 := by
        intro hz
        have := (Buf.rd_eq_ok (hread i1 i0 j h1 h0 hj)).2
        rw [hz] at this
        exact hne this
      positivity
  rw [e]
  exact g2
end

end NNTile
