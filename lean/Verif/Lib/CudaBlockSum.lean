import Verif.Lib.CudaSum
import Verif.Lib.Reduce
/-! Reduction over the threads of a block by `atomicAdd` on shared memory. -/
namespace NNTile

theorem Mem.can_wr {α : Type} [FP α] {m : Mem α} {l : Loc} (h : l.2 < (m l.1).size) (v : α) : ∃ m', m.wr l v = .ok m' ∧ m'.rd l = .ok v ∧ (∀ l', l' ≠ l → m'.rd l' = m.rd l') ∧
    ∀ sp, (m' sp).size = (m sp).size := by
  obtain ⟨m', hm'⟩ := Mem.wr_can h v
  exact ⟨m', hm', Mem.rd_wr_eq hm', fun l' hl' => Mem.rd_wr_ne hm' hl', Mem.wr_size hm'⟩

theorem blockSum_pos {α : Type} [FP α] (b : Dim3) (slot : Nat) {leader : Prop} [Decidable leader] (s : α) (fin : α → PM α Unit) (h : leader) :
    blockSum b slot leader s fin (fun _ => .done) = .wr (.shared b, slot) 0 (.sync (.atomicAdd (.shared b, slot) s (.sync (PM.prog (if leader then (sld b slot >>= fin) else pure ()))))) := by
  unfold blockSum
  simp only [if_pos h]
  rfl

theorem blockSum_neg {α : Type} [FP α] (b : Dim3) (slot : Nat) {leader : Prop} [Decidable leader] (s : α) (fin : α → PM α Unit) (h : ¬ leader) :
    blockSum b slot leader s fin (fun _ => .done) = .sync (.atomicAdd (.shared b, slot) s (.sync (PM.prog (if leader then (sld b slot >>= fin) else pure ())))) := by
  unfold blockSum
  simp only [if_neg h]
  rfl

section
variable {g : Launch ℝ} (hv : g.Valid) {act : Tid → Prop} [DecidablePred act] {srcs : List (Buf ℝ)} {dst dst' : Buf ℝ}
  {slot : Tid → Nat} {leader : Tid → Prop} [DecidablePred leader] {wr : Tid → Prop} [DecidablePred wr] {out : Tid → Nat} {pre : Tid → PM ℝ ℝ} {v : Tid → ℝ} {alpha beta : ℝ}
include hv

theorem blockSum_gives (hbody : ∀ t, g.Has t → g.body t = if act t then
      PM.prog (pre t >>= fun s => blockSum t.blk (slot t) (leader t) s fun s => if wr t then storeSumCuda alpha beta (out t) s else pure ()) else .done)
    (hpre : ∀ t, g.Has t → act t → (pre t).Reads (g.mem (taskBufs dst srcs)) (v t))
    (hslot : ∀ t, g.Has t → act t → slot t < g.shared)
    (hlead : ∀ t u, g.Has t → act t → leader t → g.Has u → act u → leader u → t.blk = u.blk → slot t = slot u → t = u)
    (hex : ∀ t, g.Has t → act t → ∃ u, g.Has u ∧ act u ∧ leader u ∧ u.blk = t.blk ∧ slot u = slot t)
    (hout : ∀ t u, g.Has t → act t → leader t → wr t → g.Has u → act u → leader u → wr u → out t = out u → t = u)
    (hsize : dst'.size = dst.size) (hframe : ∀ x, (∀ t, g.Has t → act t → leader t → wr t → out t ≠ x) → dst'.data x = dst.data x)
    (hval : ∀ t, g.Has t → act t → leader t → wr t → ∃ y, out t < dst.size ∧ (beta ≠ 0 → dst.rd (out t) = .ok y) ∧
      dst'.rd (out t) = .ok (beta * y + alpha * (((g.blockL act t.blk).filter fun u => slot u = slot t).map v).sum)) : g.Gives srcs dst dst' := by
  classical
  set m0 := g.mem (taskBufs dst srcs) with hm0
  let S : Tid → ℝ := fun t => (((g.blockL act t.blk).filter fun u => slot u = slot t).map v).sum
  let W : Dim3 → Loc → Prop := fun b l => l.1 = .shared b ∨ ∃ t, g.Has t ∧ act t ∧ leader t ∧ wr t ∧ t.blk = b ∧ l = (.glob 0, out t)
  let Post : Dim3 → Mem ℝ → Prop := fun b m => ∀ t, g.Has t → act t → leader t → wr t → t.blk = b → m.rd (.glob 0, out t) = dst'.rd (out t)
  have hstart : ∀ b, ∀ t ∈ g.blockL act b, g.start t = PM.prog (pre t >>= fun s => blockSum t.blk (slot t) (leader t) s fun s => if wr t then storeSumCuda alpha beta (out t) s else pure ()) := by
    intro b t ht
    have ht := Launch.mem_blockL.1 ht
    unfold Launch.start
    rw [if_pos ⟨hv, ht.2.1⟩, hbody t ht.2.1, if_pos ht.2.2]
  refine Launch.gives_of_works (Post := Post) (W := W) (Launch.works_of_phases (act := act) (taskBufs dst srcs) ?_ W SrcLoc ?_ ?_ Post ?_ 3 fun b => ?_) ?_ hsize ?_ ?_
  · intro t ht
    unfold Launch.start
    split
    swap
    · rfl
    rename_i h
    rw [hbody t h.2, if_neg fun h' => ht ⟨h.2, h'⟩]
  · rintro b b' l hb (h | ⟨t, h1, h2, h3, h4, h5, rfl⟩) (h' | ⟨u, g1, g2, g3, g4, g5, h'⟩)
    · rw [h] at h'; cases h'; exact hb rfl
    · subst h'; cases h
    · cases h'
    · have := hout t u h1 h2 h3 h4 g1 g2 g3 g4 (by simpa using h')
      subst this
      exact hb (h5.symm.trans g5)
  · rintro b l (h | ⟨t, h1, h2, h3, h4, h5, rfl⟩) ⟨j, hj⟩
    · rw [h] at hj; cases hj
    · cases hj
  · intro b m m1 hag hp t h1 h2 h3 h4 h5
    rw [hag.1 _ (Or.inl (Or.inr ⟨t, h1, h2, h3, h4, h5, rfl⟩))]
    exact hp t h1 h2 h3 h4 h5
  · -- the three phases of block `b`
    set L := g.blockL act b with hLdef
    have hL : L.Nodup := Launch.blockL_nodup
    have hmem : ∀ t ∈ L, t.blk = b ∧ g.Has t ∧ act t := fun t ht => Launch.mem_blockL.1 ht
    have hsh0 : (m0 (.shared b)).size = g.shared := rfl
    let R3 : Tid → Prog ℝ := fun t => PM.prog (if leader t then (sld b (slot t) >>= fun s => if wr t then storeSumCuda alpha beta (out t) s else pure ()) else pure ())
    let R1 : Tid → Prog ℝ := fun t => .sync (.atomicAdd (.shared b, slot t) (v t) (.sync (R3 t)))
    let R2 : Tid → Prog ℝ := fun t => .sync (R3 t)
    -- phase 1
    let c1 : Cls ℝ := ⟨fun t l => t ∈ L ∧ leader t ∧ l = (.shared b, slot t), SrcLoc, fun _ => False, fun _ => False, fun _ => 0⟩
    have hc1 : c1.Ok := by
      refine ⟨?_, ?_, ?_, ?_, ?_, ?_, ?_, ?_, ?_⟩ <;> try (intro l h; exact h.elim)
      · rintro t u l hne ⟨h1, h2, rfl⟩ ⟨g1, g2, h'⟩
        have e := hmem t h1
        have e' := hmem u g1
        exact hne (hlead t u e.2.1 e.2.2 h2 e'.2.1 e'.2.2 g2 (e.1.trans e'.1.symm) (by simpa using h'))
      · rintro t l ⟨h1, h2, rfl⟩ ⟨j, hj⟩; cases hj
      · rintro t l _ h; exact h
      · rintro t l _ h; exact h
    refine BlockOk.phase hL c1 hc1 ⟨?_, ?_, ?_, ?_⟩ ?_ ?_ R1
      (fun K m => (∀ t ∈ K, leader t → m.rd (.shared b, slot t) = .ok 0) ∧ (∀ l : Loc, l.1 ≠ .shared b → m.rd l = m0.rd l) ∧ ∀ sp, (m sp).size = (m0 sp).size) ?_ ?_ ?_
    · rintro t l ⟨_, _, rfl⟩; exact Or.inl rfl
    · intro l h; exact h.elim
    · intro l h; exact h.elim
    · intro l h; exact Or.inr h
    · intro t ht
      rw [hstart b t ht]
      refine (hpre t (hmem t ht).2.1 (hmem t ht).2.2).foot c1 t _ (fun l h => h) ?_
      change (blockSum t.blk (slot t) (leader t) (v t) _ _).FootB _ _ _
      rw [(hmem t ht).1]
      by_cases h : leader t
      · rw [blockSum_pos _ _ _ _ h]
        exact ⟨⟨ht, h, rfl⟩, trivial⟩
      · rw [blockSum_neg _ _ _ _ h]; trivial
    · intro l h; exact h.elim
    · exact ⟨by simp, fun _ _ => rfl, fun _ => rfl⟩
    · rintro K t m ht hK ⟨i1, i2, i3⟩
      rw [hstart b t ht]
      refine (hpre t (hmem t ht).2.1 (hmem t ht).2.2).wp _ _ _ m (fun l hl => i2 l ?_) ?_
      · rintro h; obtain ⟨j, hj⟩ := hl; rw [h] at hj; cases hj
      change (blockSum t.blk (slot t) (leader t) (v t) _ _).wp _ _ _
      rw [(hmem t ht).1]
      by_cases h : leader t
      · rw [blockSum_pos _ _ _ _ h]
        obtain ⟨m', w1, w2, w3, w4⟩ := Mem.can_wr (m := m) (l := (.shared b, slot t)) (by rw [i3]; exact hslot t (hmem t ht).2.1 (hmem t ht).2.2) (0 : ℝ)
        refine ⟨m', w1, rfl, ?_, ?_, fun sp => (w4 sp).trans (i3 sp)⟩
        · intro u hu hl
          by_cases e : slot u = slot t
          · rw [e, w2]
          · rcases List.mem_cons.1 hu with rfl | hu
            · exact (e rfl).elim
            · rw [w3 _ (by simpa using e), i1 u hu hl]
        · intro l hl
          rw [w3 _ (by rintro rfl; exact hl rfl), i2 l hl]
      · rw [blockSum_neg _ _ _ _ h]
        refine ⟨rfl, ?_, i2, i3⟩
        · intro u hu hl
          rcases List.mem_cons.1 hu with rfl | hu
          · exact (h hl).elim
          · exact i1 u hu hl
    rintro K1 m1 hK1 ⟨i1, i2, i3⟩
    have i1' : ∀ t ∈ L, m1.rd (.shared b, slot t) = .ok 0 := by
      intro t ht
      obtain ⟨u, u1, u2, u3, u4, u5⟩ := hex t (hmem t ht).2.1 (hmem t ht).2.2
      have hu : u ∈ K1 := hK1.mem_iff.2 (Launch.mem_blockL.2 ⟨u4.trans (hmem t ht).1, u1, u2⟩)
      rw [← u5]
      exact i1 u hu u3
    -- phase 2
    let c2 : Cls ℝ := ⟨fun _ _ => False, fun _ => False, fun l => l.1 = .shared b, fun _ => False, fun _ => 0⟩
    have hc2 : c2.Ok := by
      refine ⟨?_, ?_, ?_, ?_, ?_, ?_, ?_, ?_, ?_⟩ <;> try (intro l h; exact h.elim)
      · intro t u l _ h; exact h.elim
      · intro t l h; exact h.elim
      · intro t l h; exact h.elim
      · intro t l h; exact h.elim
      · intro l _ h; exact h
      · intro l _ h; exact h
      · intro l _ x v w; ring
    refine BlockOk.phase hL c2 hc2 ⟨?_, ?_, ?_, ?_⟩ ?_ ?_ R2
      (fun K m => (∀ t ∈ L, m.rd (.shared b, slot t) = .ok ((K.filter fun u => slot u = slot t).map v).sum) ∧ (∀ l : Loc, l.1 ≠ .shared b → m.rd l = m0.rd l) ∧ ∀ sp, (m sp).size = (m0 sp).size) ?_ ?_ ?_
    · intro t l h; exact h.elim
    · intro l h; exact Or.inl h
    · intro l h; exact h.elim
    · intro l h; exact h.elim
    · intro t ht; exact ⟨Or.inr rfl, trivial⟩
    · intro l h; exact h.elim
    · exact ⟨fun t ht => by simpa using i1' t ht, i2, i3⟩
    · rintro K t m ht hK ⟨j1, j2, j3⟩
      obtain ⟨m', w1, w2, w3, w4⟩ := Mem.can_wr (m := m) (l := (.shared b, slot t)) (by rw [j3]; exact hslot t (hmem t ht).2.1 (hmem t ht).2.2) (((K.filter fun u => slot u = slot t).map v).sum + v t)
      refine ⟨_, m', j1 t ht, w1, rfl, ?_, ?_, fun sp => (w4 sp).trans (j3 sp)⟩
      · intro u hu
        by_cases e : slot u = slot t
        · rw [e, w2, List.filter_cons_of_pos (by simp), List.map_cons, List.sum_cons, add_comm]
        · rw [w3 _ (by simpa using e), j1 u hu, List.filter_cons_of_neg (by simpa using Ne.symm e)]
      · intro l hl
        rw [w3 _ (by rintro rfl; exact hl rfl), j2 l hl]
    rintro K2 m2 hK2 ⟨j1, j2, j3⟩
    have j1' : ∀ t ∈ L, m2.rd (.shared b, slot t) = .ok (S t) := by
      intro t ht
      rw [j1 t ht]
      simp only [S]
      rw [(hmem t ht).1, ((hK2.filter _).map v).sum_eq]
    -- phase 3
    let c3 : Cls ℝ := ⟨fun t l => t ∈ L ∧ leader t ∧ wr t ∧ l = (.glob 0, out t), fun l => l.1 = .shared b, fun _ => False, fun _ => False, fun _ => 0⟩
    have hc3 : c3.Ok := by
      refine ⟨?_, ?_, ?_, ?_, ?_, ?_, ?_, ?_, ?_⟩ <;> try (intro l h; exact h.elim)
      · rintro t u l hne ⟨h1, h2, h3, rfl⟩ ⟨g1, g2, g3, h'⟩
        have e := hmem t h1
        have e' := hmem u g1
        exact hne (hout t u e.2.1 e.2.2 h2 h3 e'.2.1 e'.2.2 g2 g3 (by simpa using h'))
      · rintro t l ⟨h1, h2, h3, rfl⟩ h; cases h
      · rintro t l _ h; exact h
      · rintro t l _ h; exact h
    refine BlockOk.phase hL c3 hc3 ⟨?_, ?_, ?_, ?_⟩ ?_ ?_ (fun _ => .done)
      (fun K m => (∀ t ∈ K, t ∈ L → leader t → wr t → m.rd (.glob 0, out t) = dst'.rd (out t)) ∧ (∀ t ∈ L, t ∉ K → leader t → wr t → m.rd (.glob 0, out t) = m0.rd (.glob 0, out t)) ∧
        (∀ l : Loc, l.1 = .shared b → m.rd l = m2.rd l) ∧ ∀ sp, (m sp).size = (m0 sp).size) ?_ ?_ ?_
    · rintro t l ⟨h1, h2, h3, rfl⟩
      have e := hmem t h1
      exact Or.inr ⟨t, e.2.1, e.2.2, h2, h3, e.1, rfl⟩
    · intro l h; exact h.elim
    · intro l h; exact h.elim
    · intro l h; exact Or.inl (Or.inl h)
    · intro t ht
      change (R3 t).FootB c3 m2 t
      simp only [R3]
      by_cases h : leader t
      · rw [if_pos h]
        refine Or.inr ⟨rfl, fun s hs => ?_⟩
        dsimp only
        by_cases h' : wr t
        · rw [if_pos h']
          unfold storeSumCuda
          split
          · exact ⟨⟨ht, h, h', rfl⟩, trivial⟩
          · exact Or.inl ⟨⟨ht, h, h', rfl⟩, fun y => ⟨⟨ht, h, h', rfl⟩, trivial⟩⟩
        · rw [if_neg h']; trivial
      · rw [if_neg h]; trivial
    · intro l h; exact h.elim
    · refine ⟨by simp, fun t ht _ _ _ => j2 _ (by simp), fun _ _ => rfl, j3⟩
    · rintro K t m ht hK ⟨k1, k2, k3, k4⟩
      change (R3 t).wp _ _ m
      simp only [R3]
      by_cases h : leader t
      swap
      · rw [if_neg h]
        refine ⟨rfl, fun u hu huL hl => ?_, fun u huL hu hl => ?_, k3, k4⟩
        · rcases List.mem_cons.1 hu with rfl | hu
          · exact (h hl).elim
          · exact k1 u hu huL hl
        · exact k2 u huL (fun h => hu (by simp [h])) hl
      rw [if_pos h]
      refine ⟨S t, by rw [k3 _ rfl, j1' t ht], ?_⟩
      dsimp only
      by_cases h' : wr t
      swap
      · rw [if_neg h']
        refine ⟨rfl, fun u hu huL hl hwr => ?_, fun u huL hu hl => ?_, k3, k4⟩
        · rcases List.mem_cons.1 hu with rfl | hu
          · exact (h' hwr).elim
          · exact k1 u hu huL hl hwr
        · exact k2 u huL (fun h => hu (by simp [h])) hl
      rw [if_pos h']
      obtain ⟨y, y1, y2, y3⟩ := hval t (hmem t ht).2.1 (hmem t ht).2.2 h h'
      obtain ⟨m', w1, w2, w3, w4⟩ := Mem.can_wr (m := m) (l := (.glob 0, out t)) (by rw [k4]; exact y1) (beta * y + alpha * S t)
      have fin : (∀ u ∈ t :: K, u ∈ L → leader u → wr u → m'.rd (.glob 0, out u) = dst'.rd (out u)) ∧
          (∀ u ∈ L, u ∉ t :: K → leader u → wr u → m'.rd (.glob 0, out u) = m0.rd (.glob 0, out u)) ∧ (∀ l : Loc, l.1 = .shared b → m'.rd l = m2.rd l) ∧ ∀ sp, (m' sp).size = (m0 sp).size := by
        refine ⟨fun u hu huL hl hwr => ?_, fun u huL hu hl hwr => ?_, fun l hl => ?_, fun sp => (w4 sp).trans (k4 sp)⟩
        · by_cases e : u = t
          · subst e; rw [w2, y3]
          · have hne : out u ≠ out t := fun e' => e (hout u t (hmem u huL).2.1 (hmem u huL).2.2 hl hwr (hmem t ht).2.1 (hmem t ht).2.2 h h' e')
            rw [w3 _ (by simpa using hne)]
            exact k1 u ((List.mem_cons.1 hu).resolve_left e) huL hl hwr
        · have e : u ≠ t := by rintro rfl; exact hu (by simp)
          have hne : out u ≠ out t := fun e' => e (hout u t (hmem u huL).2.1 (hmem u huL).2.2 hl hwr (hmem t ht).2.1 (hmem t ht).2.2 h h' e')
          rw [w3 _ (by simpa using hne)]
          exact k2 u huL (fun h => hu (by simp [h])) hl hwr
        · rw [w3 _ (by rintro rfl; cases hl), k3 l hl]
      unfold storeSumCuda
      by_cases hb : beta = 0
      · rw [if_pos (by simpa using hb)]
        refine ⟨m', ?_, rfl, fin⟩
        rw [← w1, hb, zero_mul, zero_add]
      · rw [if_neg (by simpa using hb)]
        refine ⟨y, ?_, m', w1, rfl, fin⟩
        rw [k2 t ht hK h h']
        exact y2 hb
    rintro K3 m3 hK3 ⟨k1, k2, k3, k4⟩
    refine ⟨fun t _ => rfl, fun t h1 h2 h3 h4 h5 => ?_⟩
    have htL : t ∈ L := Launch.mem_blockL.2 ⟨h5, h1, h2⟩
    exact k1 t (hK3.mem_iff.2 htL) htL h3 h4
  · rintro b l (h | ⟨t, _, _, _, _, _, rfl⟩)
    · exact Or.inr ⟨b, h⟩
    · exact Or.inl rfl
  · intro x hx
    refine hframe x fun t h1 h2 h3 h4 h5 => hx t.blk (Or.inr ⟨t, h1, h2, h3, h4, rfl, by rw [h5]⟩)
  · rintro m b x hp (h | ⟨t, h1, h2, h3, h4, h5, h6⟩)
    · cases h
    · have h6 : x = out t := by simpa using h6
      subst h6
      obtain ⟨y, _, _, hy⟩ := hval t h1 h2 h3 h4
      exact ⟨hp b t h1 h2 h3 h4 h5, _, hy⟩
end

end NNTile
