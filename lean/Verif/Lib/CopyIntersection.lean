import Verif.Model.CopyIntersection
import Verif.Lib.ScatterGather
/-! Correctness of `copy_intersection`. -/
namespace NNTile
variable {α : Type}

/-! ### One dimension -/

/-- What the intersection computation guarantees in one dimension. -/
structure CIDim.Valid (d : CIDim) (so dO : Int) : Prop where
  sb : 0 < d.sb
  db : 0 < d.db
  c : 0 < d.c
  src : d.ss + d.c ≤ d.sN
  dst : d.ds + d.c ≤ d.dN
  same : so + (d.ss : Int) = dO + (d.ds : Int)
  all : ∀ i j : Nat, i < d.dN → j < d.sN → so + (j : Int) = dO + (i : Int) → d.ds ≤ i ∧ i < d.ds + d.c

theorem ciStart_some {so dO : Int} {sN dN ss ds c : Nat} (h : ciStart so sN dO dN = some (ss, ds, c)) (hs : 0 < sN) (hd : 0 < dN) :
    0 < c ∧ ss + c ≤ sN ∧ ds + c ≤ dN ∧ so + (ss : Int) = dO + (ds : Int) ∧
    ∀ i j : Nat, i < dN → j < sN → so + (j : Int) = dO + (i : Int) → ds ≤ i ∧ i < ds + c := by
  simp only [ciStart] at h
  split at h
  · cases h
  · split at h
    · simp only [Option.some.injEq, Prod.mk.injEq] at h
      obtain ⟨rfl, rfl, rfl⟩ := h
      refine ⟨by omega, by omega, by omega, by omega, ?_⟩
      intro i j _ _ _
      omega
    · simp only [Option.some.injEq, Prod.mk.injEq] at h
      obtain ⟨rfl, rfl, rfl⟩ := h
      refine ⟨by omega, by omega, by omega, by omega, ?_⟩
      intro i j _ _ _
      omega

theorem ciStart_none {so dO : Int} {sN dN : Nat} (h : ciStart so sN dO dN = none) :
    ∀ i j : Nat, i < dN → j < sN → so + (j : Int) ≠ dO + (i : Int) := by
  simp only [ciStart] at h
  split at h
  · intro i j _ _ _; omega
  · split at h <;> cases h

section dim
variable {d : CIDim} {so dO : Int} {t u : Nat}

theorem divFacts (x b : Nat) (hb : 0 < b) : x / b * b ≤ x ∧ x < x / b * b + b := by
  have h1 := Nat.div_add_mod x b
  have h2 := Nat.mod_lt x hb
  have h3 : b * (x / b) = x / b * b := Nat.mul_comm _ _
  omega

theorem mul_lt_of_lt {a b c : Nat} (h : a < b) : a * c + c ≤ b * c := by
  have : (a + 1) * c ≤ b * c := Nat.mul_le_mul_right c h
  rw [Nat.add_mul, Nat.one_mul] at this
  exact this

/-- Position of destination tile `t` relative to the copied range. -/
theorem CIDim.tileFacts (h : d.Valid so dO) (h1 : d.tb ≤ t) (h2 : t < d.te) :
    (t = d.tb → t * d.db ≤ d.ds ∧ d.ds < t * d.db + d.db) ∧ (t ≠ d.tb → d.ds < t * d.db) ∧ t * d.db ≤ d.ds + d.c - 1 ∧
    (t + 1 = d.te → d.ds + d.c - 1 < t * d.db + d.db) ∧ (t + 1 ≠ d.te → t * d.db + d.db ≤ d.ds + d.c - 1) := by
  have a := divFacts d.ds d.db h.db
  have b := divFacts (d.ds + d.c - 1) d.db h.db
  have e1 : d.tb = d.ds / d.db := rfl
  have e2 : d.te = (d.ds + d.c - 1) / d.db + 1 := rfl
  rw [← e1] at a
  set w := (d.ds + d.c - 1) / d.db with hw
  have hc := h.c
  refine ⟨?_, ?_, ?_, ?_, ?_⟩
  · rintro rfl; exact a
  · intro hne
    have := mul_lt_of_lt (c := d.db) (show d.tb < t by omega)
    omega
  · have := Nat.mul_le_mul_right d.db (show t ≤ w by omega)
    omega
  · intro he
    have : t = w := by omega
    subst this; omega
  · intro hne
    have := mul_lt_of_lt (c := d.db) (show t < w by omega)
    omega

/-- First source element of the part for destination tile `t`. -/
def CIDim.lo (d : CIDim) (t : Nat) : Nat := if t = d.tb then d.ss else t * d.db + d.ss - d.ds
/-- Last source element. -/
def CIDim.hi (d : CIDim) (t : Nat) : Nat := if t + 1 = d.te then d.ss + d.c - 1 else t * d.db + d.db + d.ss - d.ds - 1

theorem CIDim.ub_eq (h : d.Valid so dO) (h1 : d.tb ≤ t) (h2 : t < d.te) : d.ub t = d.lo t / d.sb := by
  obtain ⟨a, b, -, -, -⟩ := CIDim.tileFacts h h1 h2
  simp only [CIDim.ub, CIDim.lo]
  split
  · rfl
  · rename_i hne
    have := b hne
    rw [show ((t : Int) * d.db - d.ds + d.ss) = ((t * d.db + d.ss - d.ds : Nat) : Int) by
      rw [Nat.cast_sub (by omega)]; push_cast; ring, ← Int.natCast_ediv, Int.toNat_natCast]

theorem CIDim.ue_eq (h : d.Valid so dO) (h1 : d.tb ≤ t) (h2 : t < d.te) : d.ue t = d.hi t / d.sb + 1 := by
  obtain ⟨x, y, -, a, b⟩ := CIDim.tileFacts h h1 h2
  simp only [CIDim.ue, CIDim.hi]
  split
  · rfl
  · rename_i hne
    have := b hne
    have hc := h.c
    have hds : d.ds < t * d.db + d.db := by
      by_cases h0 : t = d.tb
      · exact (x h0).2
      · have := y h0; omega
    rw [show (((t : Int) + 1) * d.db - 1 - d.ds + d.ss) = ((t * d.db + d.db + d.ss - d.ds - 1 : Nat) : Int) by
      rw [Nat.cast_sub (by omega), Nat.cast_sub (by omega)]; push_cast; ring, ← Int.natCast_ediv]
    generalize (t * d.db + d.db + d.ss - d.ds - 1) / d.sb = q
    omega

theorem CIDim.lo_le_hi (h : d.Valid so dO) (h1 : d.tb ≤ t) (h2 : t < d.te) : d.lo t ≤ d.hi t := by
  obtain ⟨a, b, c, e, f⟩ := CIDim.tileFacts h h1 h2
  have hc := h.c
  have hdb := h.db
  simp only [CIDim.lo, CIDim.hi]
  split
  · rename_i h0
    have := a h0
    split
    · omega
    · rename_i h3; have := f h3; omega
  · rename_i h0
    have := b h0
    split
    · omega
    · rename_i h3; have := f h3; omega

theorem CIDim.ub_lt_ue (h : d.Valid so dO) (h1 : d.tb ≤ t) (h2 : t < d.te) : d.ub t < d.ue t := by
  rw [CIDim.ub_eq h h1 h2, CIDim.ue_eq h h1 h2]
  have := Nat.div_le_div_right (c := d.sb) (CIDim.lo_le_hi h h1 h2)
  omega

theorem CIDim.tb_lt_te (h : d.Valid so dO) : d.tb < d.te := by
  have := Nat.div_le_div_right (c := d.db) (show d.ds ≤ d.ds + d.c - 1 by have := h.c; omega)
  simp only [CIDim.tb, CIDim.te]
  omega

/-- Position of source tile `u`. -/
theorem CIDim.srcFacts (h : d.Valid so dO) (h1 : d.tb ≤ t) (h2 : t < d.te) (h3 : d.ub t ≤ u) (h4 : u < d.ue t) :
    (u = d.ub t → u * d.sb ≤ d.lo t ∧ d.lo t < u * d.sb + d.sb) ∧ (u ≠ d.ub t → d.lo t < u * d.sb) ∧ u * d.sb ≤ d.hi t ∧
    (u + 1 = d.ue t → d.hi t < u * d.sb + d.sb) ∧ (u + 1 ≠ d.ue t → u * d.sb + d.sb ≤ d.hi t) := by
  have a := divFacts (d.lo t) d.sb h.sb
  have b := divFacts (d.hi t) d.sb h.sb
  have e1 := CIDim.ub_eq h h1 h2
  have e2 := CIDim.ue_eq h h1 h2
  rw [← e1] at a
  set w := d.hi t / d.sb with hw
  refine ⟨?_, ?_, ?_, ?_, ?_⟩
  · rintro rfl; exact a
  · intro hne
    have := mul_lt_of_lt (c := d.sb) (show d.ub t < u by omega)
    omega
  · have := Nat.mul_le_mul_right d.sb (show u ≤ w by omega)
    omega
  · intro he
    have : u = w := by omega
    subst this; omega
  · intro hne
    have := mul_lt_of_lt (c := d.sb) (show u < w by omega)
    omega

theorem div_eq_iff' {x b q : Nat} (hb : 0 < b) : x / b = q ↔ q * b ≤ x ∧ x < q * b + b := by
  constructor
  · rintro rfl; exact divFacts x b hb
  · rintro ⟨h1, h2⟩
    exact Nat.div_eq_of_lt_le h1 (by rw [Nat.succ_mul]; exact h2)

/-- The piece copied from source tile `u` to destination tile `t`. -/
theorem CIDim.piece_spec (h : d.Valid so dO) (h1 : d.tb ≤ t) (h2 : t < d.te) (h3 : d.ub t ≤ u) (h4 : u < d.ue t) :
    0 < (d.piece t u).2.2 ∧ (d.piece t u).1 + (d.piece t u).2.2 ≤ min d.sb (d.sN - u * d.sb) ∧
    (d.piece t u).2.1 + (d.piece t u).2.2 ≤ min d.db (d.dN - t * d.db) ∧
    so + ((u * d.sb + (d.piece t u).1 : Nat) : Int) = dO + ((t * d.db + (d.piece t u).2.1 : Nat) : Int) ∧
    ∀ l j : Nat, l < min d.db (d.dN - t * d.db) → j < d.sN → so + (j : Int) = dO + ((t * d.db + l : Nat) : Int) → j / d.sb = u →
      (d.piece t u).2.1 ≤ l ∧ l < (d.piece t u).2.1 + (d.piece t u).2.2 := by
  obtain ⟨a1, a2, a3, a4, a5⟩ := CIDim.tileFacts h h1 h2
  obtain ⟨b1, b2, b3, b4, b5⟩ := CIDim.srcFacts h h1 h2 h3 h4
  have hall := h.all
  obtain ⟨hsb, hdb, hc, hsrc, hdst, hsame, -⟩ := h
  have hu : ∀ j, j / d.sb = u ↔ u * d.sb ≤ j ∧ j < u * d.sb + d.sb := fun j => div_eq_iff' hsb
  simp only [hu]
  have hall' : ∀ l j : Nat, l < min d.db (d.dN - t * d.db) → j < d.sN → so + (j : Int) = dO + ((t * d.db + l : Nat) : Int) →
      d.ds ≤ t * d.db + l ∧ t * d.db + l < d.ds + d.c := by
    intro l j hl hj he
    exact hall (t * d.db + l) j (by omega) hj he
  clear hall hu
  simp only [CIDim.lo, CIDim.hi] at b1 b2 b3 b4 b5
  simp only [CIDim.piece, show ((t : Int) * (d.db : Int)) = ((t * d.db : Nat) : Int) by push_cast; ring,
    show ((u : Int) * (d.sb : Int)) = ((u * d.sb : Nat) : Int) by push_cast; ring]
  generalize t * d.db = A at *
  generalize u * d.sb = B at *
  rcases Classical.propComplete (u = d.ub t) with c1 | c1 <;> rcases Classical.propComplete (t = d.tb) with c2 | c2 <;>
    rcases Classical.propComplete (u + 1 = d.ue t) with c3 | c3 <;> rcases Classical.propComplete (t + 1 = d.te) with c4 | c4 <;>
    simp only [c1, c2, c3, c4, if_true, if_false, true_imp_iff, not_true_eq_false, not_false_eq_true, ne_eq, false_imp_iff] at a1 a2 a3 a4 a5 b1 b2 b3 b4 b5 ⊢ <;>
    refine ⟨by omega, by omega, by omega, by omega, ?_⟩ <;>
    (intro l j hl hj he hu; have := hall' l j hl hj he; omega)

theorem CIDim.pieceFirst_eq (t : Nat) : d.pieceFirst t = d.piece t (d.ub t) := by
  simp only [CIDim.pieceFirst, CIDim.piece, if_true]

/-- Every element of the copied range lies in one of the visited source tiles. -/
theorem CIDim.cover (h : d.Valid so dO) (h1 : d.tb ≤ t) (h2 : t < d.te) {l : Nat} (hl : l < min d.db (d.dN - t * d.db))
    (hr : d.ds ≤ t * d.db + l ∧ t * d.db + l < d.ds + d.c) :
    d.ub t ≤ (t * d.db + l + d.ss - d.ds) / d.sb ∧ (t * d.db + l + d.ss - d.ds) / d.sb < d.ue t := by
  obtain ⟨a1, a2, a3, a4, a5⟩ := CIDim.tileFacts h h1 h2
  rw [CIDim.ub_eq h h1 h2, CIDim.ue_eq h h1 h2]
  have e1 : d.lo t ≤ t * d.db + l + d.ss - d.ds := by simp only [CIDim.lo]; split <;> omega
  have e2 : t * d.db + l + d.ss - d.ds ≤ d.hi t := by
    simp only [CIDim.hi]; split
    · omega
    · rename_i hne; have := a5 hne; omega
  have := Nat.div_le_div_right (c := d.sb) e1
  have := Nat.div_le_div_right (c := d.sb) e2
  omega

/-- The destination tiles that are visited are those that meet the copied range. -/
theorem CIDim.visit (h : d.Valid so dO) {l : Nat} (hl : l < d.db) :
    (d.ds ≤ t * d.db + l ∧ t * d.db + l < d.ds + d.c) → d.tb ≤ t ∧ t < d.te := by
  rintro ⟨h1, h2⟩
  have e : t = (t * d.db + l) / d.db := ((div_eq_iff' h.db).2 ⟨by omega, by omega⟩).symm
  have a := Nat.div_le_div_right (c := d.db) h1
  have b := Nat.div_le_div_right (c := d.db) (show t * d.db + l ≤ d.ds + d.c - 1 by omega)
  rw [← e] at a b
  simp only [CIDim.tb, CIDim.te]
  omega

/-- A tile that is not marked as partially overwritten is inside of the copied range. -/
theorem CIDim.full (h : d.Valid so dO) (h1 : d.tb ≤ t) (h2 : t < d.te) (hp : d.partialTile t (min d.db (d.dN - t * d.db)) = false)
    {l : Nat} (hl : l < min d.db (d.dN - t * d.db)) : d.ds ≤ t * d.db + l ∧ t * d.db + l < d.ds + d.c := by
  obtain ⟨a1, a2, a3, a4, a5⟩ := CIDim.tileFacts h h1 h2
  simp only [CIDim.partialTile, decide_eq_false_iff_not, not_or, not_and, not_not] at hp
  constructor
  · by_cases h0 : t = d.tb
    · have := hp.1 h0; omega
    · have := a2 h0; omega
  · by_cases h0 : t + 1 = d.te
    · have := hp.2 h0; omega
    · have := a5 h0; omega

end dim

/-! ### All dimensions -/

/-- `b[k] <= t[k] < e[k]` for all `k`. -/
def InRange : List Nat → List Nat → List Nat → Prop
  | b :: bs, e :: es, t :: ts => (b ≤ t ∧ t < e) ∧ InRange bs es ts
  | [], [], [] => True
  | _, _, _ => False

/-- `e[k] - b[k]`. -/
def subIdx : List Nat → List Nat → List Nat
  | e :: es, b :: bs => (e - b) :: subIdx es bs
  | _, _ => []

/-- `b[k] < e[k]`. -/
def RangeOK : List Nat → List Nat → Prop
  | b :: bs, e :: es => b < e ∧ RangeOK bs es
  | [], [] => True
  | _, _ => False

theorem boxCount_eq {b e : List Nat} (h : RangeOK b e) : boxCount b e = (subIdx e b).prod := by
  induction b generalizing e with
  | nil => cases e <;> simp_all [RangeOK, boxCount, subIdx]
  | cons x b ih => cases e with
    | nil => simp [RangeOK] at h
    | cons y e => simp only [RangeOK] at h; simp [boxCount, subIdx, ih h.2]

theorem RangeOK.pos {b e : List Nat} (h : RangeOK b e) : Pos (subIdx e b) := by
  induction b generalizing e with
  | nil => cases e <;> simp_all [RangeOK, subIdx]
  | cons x b ih => cases e with
    | nil => simp [RangeOK] at h
    | cons y e => simp only [RangeOK] at h; simp only [subIdx, Pos_cons]; exact ⟨by omega, ih h.2⟩

theorem RangeOK.inRange {b e : List Nat} (h : RangeOK b e) {T : List Nat} : InRange b e T ↔ ∃ j, InBox (subIdx e b) j ∧ T = addIdx b j := by
  induction b generalizing e T with
  | nil => cases e with
    | nil => cases T with
      | nil => simp only [InRange, subIdx, true_iff]; exact ⟨[], by simp, by simp⟩
      | cons t T => simp [InRange]
    | cons y e => simp [RangeOK] at h
  | cons x b ih => cases e with
    | nil => simp [RangeOK] at h
    | cons y e =>
      simp only [RangeOK] at h
      cases T with
      | nil =>
        simp only [InRange, false_iff]
        rintro ⟨j, hj, h0⟩
        cases j with
        | nil => simp [subIdx] at hj
        | cons => simp at h0
      | cons t T =>
        simp only [InRange, ih h.2, subIdx]
        constructor
        · rintro ⟨h1, j, hj, rfl⟩
          exact ⟨(t - x) :: j, by simp only [InBox_cons]; exact ⟨by omega, hj⟩, by simp only [addIdx_cons, List.cons.injEq, and_true]; omega⟩
        · rintro ⟨j, hj, he⟩
          cases j with
          | nil => simp at hj
          | cons a j =>
            simp only [InBox_cons] at hj
            simp only [addIdx_cons, List.cons.injEq] at he
            exact ⟨by omega, j, hj.2, he.2⟩

theorem boxCarry_eq {b e j : List Nat} (h : RangeOK b e) (hj : j.length = b.length) :
    boxCarry (addIdx b j) b e = (gridCarry j (subIdx e b) >>= fun r => .ok (addIdx b r)) := by
  induction b generalizing e j with
  | nil => cases e <;> cases j <;> simp_all [RangeOK, boxCarry, subIdx, gridCarry]
  | cons x b ih => cases e with
    | nil => simp [RangeOK] at h
    | cons y e =>
      simp only [RangeOK] at h
      have hiff : ∀ i, (x + i = y) ↔ i = y - x := by intro i; omega
      match j, b, hj with
      | [i], [], _ =>
        simp only [addIdx_cons, addIdx_nil_right, boxCarry, subIdx, gridCarry, hiff]
        split <;> simp
      | i :: i1 :: is, x1 :: b, hj =>
        simp only [addIdx_cons, boxCarry, subIdx, hiff]
        cases e with
        | nil => simp [RangeOK] at h
        | cons y1 e =>
          simp only [subIdx]
          rw [gridCarry]
          have := ih (e := y1 :: e) (j := (i1 + 1) :: is) h.2 (by simpa using hj)
          simp only [addIdx_cons, subIdx] at this
          rw [show x1 + (i1 + 1) = x1 + i1 + 1 by omega] at this
          split
          · rename_i h0
            rw [this]
            cases gridCarry ((i1 + 1) :: is) ((y1 - x1) :: subIdx e b) with
            | error e => rfl
            | ok r => simp only [M.bind_ok, addIdx_cons]; congr 2
          · simp

theorem boxNext_spec {b e : List Nat} (h : RangeOK b e) {i : Nat} (hi : i + 1 < (subIdx e b).prod) :
    boxNext b e (addIdx b (unlin (subIdx e b) i)) = .ok (addIdx b (unlin (subIdx e b) (i + 1))) := by
  have hg := gridNext_spec h.pos hi
  cases b with
  | nil => cases e <;> simp_all [RangeOK, subIdx]
  | cons x b => cases e with
    | nil => simp [RangeOK] at h
    | cons y e =>
      simp only [subIdx, unlin_cons, gridNext] at hg
      have hc := boxCarry_eq (j := (i % (y - x) + 1) :: unlin (subIdx e b) (i / (y - x))) h (by
        have : ∀ b e, RangeOK b e → (subIdx e b).length = b.length := by
          intro b
          induction b with
          | nil => intro e; cases e <;> simp [subIdx]
          | cons x b ih => intro e h; cases e with
            | nil => simp [RangeOK] at h
            | cons y e => simp only [RangeOK] at h; simp [subIdx, ih e h.2]
        simp only [RangeOK] at h
        simp [this b e h.2])
      simp only [subIdx, hg, M.bind_ok] at hc
      simp only [subIdx, unlin_cons, addIdx_cons, boxNext] at hc ⊢
      rw [← hc]; rfl

/-- All dimensions are valid. -/
inductive CIAll : List CIDim → List Int → List Int → Prop
  | nil : CIAll [] [] []
  | cons {d ds so sos dO dOs} : CIDim.Valid d so dO → CIAll ds sos dOs → CIAll (d :: ds) (so :: sos) (dO :: dOs)

theorem ciDims_some {sos dOs : List Int} {sNs sbs dNs dbs : List Nat} {dims : List CIDim}
    (h : ciDims sos sNs sbs dOs dNs dbs = some dims) (l1 : sNs.length = sos.length) (l2 : sbs.length = sos.length)
    (l3 : dOs.length = sos.length) (l4 : dNs.length = sos.length) (l5 : dbs.length = sos.length) (p1 : Pos sNs) (p2 : Pos sbs)
    (p3 : Pos dNs) (p4 : Pos dbs) :
    dims.map CIDim.sN = sNs ∧ dims.map CIDim.sb = sbs ∧ dims.map CIDim.dN = dNs ∧ dims.map CIDim.db = dbs ∧ CIAll dims sos dOs := by
  induction sos generalizing dOs sNs sbs dNs dbs dims with
  | nil =>
    simp at l1 l2 l3 l4 l5
    subst l1 l2 l3 l4 l5
    simp only [ciDims, Option.some.injEq] at h
    subst h
    exact ⟨rfl, rfl, rfl, rfl, .nil⟩
  | cons so sos ih =>
    match sNs, sbs, dOs, dNs, dbs, l1, l2, l3, l4, l5 with
    | sN :: sNs, sb :: sbs, dO :: dOs, dN :: dNs, db :: dbs, l1, l2, l3, l4, l5 =>
      simp only [ciDims] at h
      split at h
      · cases h
      · rename_i ss ds c hst
        split at h
        · cases h
        · rename_i r hr
          cases h
          simp only [Pos_cons] at p1 p2 p3 p4
          obtain ⟨q1, q2, q3, q4, q5⟩ := ih hr (by simpa using l1) (by simpa using l2) (by simpa using l3) (by simpa using l4)
            (by simpa using l5) p1.2 p2.2 p3.2 p4.2
          obtain ⟨v1, v2, v3, v4, v5⟩ := ciStart_some hst p1.1 p3.1
          refine ⟨by simp [q1], by simp [q2], by simp [q3], by simp [q4], .cons ⟨p2.1, p4.1, v1, v2, v3, v4, v5⟩ q5⟩

theorem ciDims_none {sos dOs : List Int} {sNs sbs dNs dbs : List Nat} (h : ciDims sos sNs sbs dOs dNs dbs = none) :
    ∀ I J, InBox dNs I → InBox sNs J → ¬ SamePlace sos J dOs I := by
  induction sos generalizing dOs sNs sbs dNs dbs with
  | nil => simp [ciDims] at h
  | cons so sos ih =>
    intro I J hI hJ hp
    match sNs, sbs, dOs, dNs, dbs, h with
    | sN :: sNs, sb :: sbs, dO :: dOs, dN :: dNs, db :: dbs, h =>
      cases I with
      | nil => simp at hI
      | cons i I =>
        cases J with
        | nil => simp at hJ
        | cons j J =>
          simp only [InBox_cons] at hI hJ
          simp only [SamePlace] at hp
          simp only [ciDims] at h
          split at h
          · rename_i hst
            exact ciStart_none hst i j hI.1 hJ.1 hp.1
          · split at h
            · rename_i hr
              exact ih hr I J hI.2 hJ.2 hp.2
            · cases h

/-- Source index of the destination index `I`. -/
def srcIdx (dims : List CIDim) (I : List Nat) : List Nat := List.zipWith (fun d i => i + d.ss - d.ds) dims I

/-- `I` is in the copied range. -/
def InCopy (dims : List CIDim) (I : List Nat) : Prop := InRange (dims.map CIDim.ds) (dims.map (fun d => d.ds + d.c)) I

section all
variable {dims : List CIDim} {sos dOs : List Int}

theorem CIAll.copy_iff (h : CIAll dims sos dOs) {I : List Nat} (hI : InBox (dims.map CIDim.dN) I) :
    (InCopy dims I → InBox (dims.map CIDim.sN) (srcIdx dims I) ∧ SamePlace sos (srcIdx dims I) dOs I) ∧
    (∀ J, InBox (dims.map CIDim.sN) J → SamePlace sos J dOs I → InCopy dims I ∧ J = srcIdx dims I) := by
  induction h generalizing I with
  | nil =>
    cases I with
    | nil => simp [InCopy, InRange, srcIdx, SamePlace]; intro J hJ; cases J <;> simp_all
    | cons => simp at hI
  | @cons d ds so sos dO dOs hv _ ih =>
    cases I with
    | nil => simp at hI
    | cons i I =>
      simp only [List.map_cons, InBox_cons] at hI
      obtain ⟨e1, e2⟩ := ih hI.2
      have := hv.same
      have := hv.src
      constructor
      · intro hc
        simp only [InCopy, List.map_cons, InRange] at hc
        obtain ⟨q1, q2⟩ := e1 hc.2
        simp only [srcIdx, List.zipWith_cons_cons, List.map_cons, InBox_cons, SamePlace]
        exact ⟨⟨by omega, q1⟩, by omega, q2⟩
      · intro J hJ hp
        cases J with
        | nil => simp at hJ
        | cons j J =>
          simp only [List.map_cons, InBox_cons] at hJ
          simp only [SamePlace] at hp
          obtain ⟨q1, q2⟩ := e2 J hJ.2 hp.2
          have := hv.all i j hI.1 hJ.1 hp.1
          simp only [InCopy, List.map_cons, InRange, srcIdx, List.zipWith_cons_cons, List.cons.injEq]
          exact ⟨⟨by omega, q1⟩, by omega, q2⟩

/-- Begin and end of the source tiles for destination tile `T`. -/
abbrev ubs (dims : List CIDim) (T : List Nat) : List Nat := List.zipWith (fun d t => d.ub t) dims T
abbrev ues (dims : List CIDim) (T : List Nat) : List Nat := List.zipWith (fun d t => d.ue t) dims T
/-- Pieces. -/
abbrev pieces (dims : List CIDim) (T U : List Nat) : List (Nat × Nat × Nat) :=
  List.zipWith (fun (p : CIDim × Nat) u => p.1.piece p.2 u) (dims.zip T) U
/-- `T` is visited. -/
abbrev Visited (dims : List CIDim) (T : List Nat) : Prop := InRange (dims.map CIDim.tb) (dims.map CIDim.te) T

theorem CIAll.rangeT (h : CIAll dims sos dOs) : RangeOK (dims.map CIDim.tb) (dims.map CIDim.te) := by
  induction h with
  | nil => simp [RangeOK]
  | cons hv _ ih => simp only [List.map_cons, RangeOK]; exact ⟨CIDim.tb_lt_te hv, ih⟩

theorem CIAll.rangeU (h : CIAll dims sos dOs) {T : List Nat} (hT : Visited dims T) : RangeOK (ubs dims T) (ues dims T) := by
  induction h generalizing T with
  | nil => cases T <;> simp [RangeOK]
  | cons hv _ ih => cases T with
    | nil => simp [Visited, InRange] at hT
    | cons t T =>
      simp only [Visited, List.map_cons, InRange] at hT
      simp only [ubs, ues, List.zipWith_cons_cons, RangeOK]
      exact ⟨CIDim.ub_lt_ue hv hT.1.1 hT.1.2, ih hT.2⟩

theorem CIAll.first (T : List Nat) :
    List.zipWith (fun d t => CIDim.pieceFirst d t) dims T = pieces dims T (ubs dims T) := by
  induction dims generalizing T with
  | nil => simp [pieces]
  | cons d dims ih => cases T with
    | nil => simp [pieces]
    | cons t T =>
      have := ih T
      simp only [pieces, ubs, List.zipWith_cons_cons, List.zip_cons_cons, CIDim.pieceFirst_eq] at this ⊢
      rw [this]

/-- Geometry of the piece copied from source tile `U` to destination tile `T`. -/
theorem CIAll.piece (h : CIAll dims sos dOs) {T U : List Nat} (hT : Visited dims T) (hU : InRange (ubs dims T) (ues dims T) U) :
    InBox (gridOf (dims.map CIDim.dN) (dims.map CIDim.db)) T ∧ InBox (gridOf (dims.map CIDim.sN) (dims.map CIDim.sb)) U ∧
    (pieces dims T U).length = dims.length ∧ Pos ((pieces dims T U).map (·.2.2)) ∧
    (∀ j, InBox ((pieces dims T U).map (·.2.2)) j →
      InBox (tileShape (dims.map CIDim.sN) (dims.map CIDim.sb) U) (addIdx ((pieces dims T U).map (·.1)) j) ∧
      InBox (tileShape (dims.map CIDim.dN) (dims.map CIDim.db) T) (addIdx ((pieces dims T U).map (·.2.1)) j) ∧
      InCopy dims (globIdx (dims.map CIDim.db) T (addIdx ((pieces dims T U).map (·.2.1)) j)) ∧
      globIdx (dims.map CIDim.sb) U (addIdx ((pieces dims T U).map (·.1)) j) =
        srcIdx dims (globIdx (dims.map CIDim.db) T (addIdx ((pieces dims T U).map (·.2.1)) j))) := by
  induction h generalizing T U with
  | nil =>
    match T, U, hT, hU with
    | [], [], _, _ =>
      simp [pieces, srcIdx]
      intro j hj
      cases j <;> simp_all [InCopy, InRange]
  | @cons d ds so sos dO dOs hv _ ih =>
    match T, U, hT, hU with
    | t :: T, u :: U, hT, hU =>
      simp only [Visited, List.map_cons, InRange] at hT
      simp only [ubs, ues, List.zipWith_cons_cons, InRange] at hU
      obtain ⟨a1, a2, a3, a4, a5⟩ := ih hT.2 hU.2
      obtain ⟨b1, b2, b3, b4, b5⟩ := CIDim.piece_spec hv hT.1.1 hT.1.2 hU.1.1 hU.1.2
      have hsame := hv.same
      have hsrc := hv.src
      have hdst := hv.dst
      have hc := hv.c
      refine ⟨?_, ?_, by simp [pieces, a3], ?_, ?_⟩
      · simp only [List.map_cons, gridOf_cons, InBox_cons]
        exact ⟨(lt_grid_iff (by omega) hv.db).2 (by omega), a1⟩
      · simp only [List.map_cons, gridOf_cons, InBox_cons]
        exact ⟨(lt_grid_iff (by omega) hv.sb).2 (by omega), a2⟩
      · simp only [pieces, List.zip_cons_cons, List.zipWith_cons_cons, List.map_cons, Pos_cons]
        exact ⟨b1, a4⟩
      · intro j hj
        cases j with
        | nil => simp [pieces] at hj
        | cons x j =>
          simp only [pieces, List.zip_cons_cons, List.zipWith_cons_cons, List.map_cons, InBox_cons] at hj
          obtain ⟨c1, c2, c3, c4⟩ := a5 j hj.2
          simp only [pieces, List.zip_cons_cons, List.zipWith_cons_cons, List.map_cons, addIdx_cons, tileShape_cons, InBox_cons, globIdx_cons,
            InCopy, InRange, srcIdx]
          have hin := hv.all (t * d.db + ((d.piece t u).2.1 + x)) (u * d.sb + ((d.piece t u).1 + x)) (by omega) (by omega) (by omega)
          refine ⟨⟨by omega, c1⟩, ⟨by omega, c2⟩, ⟨by omega, c3⟩, ?_⟩
          have : u * d.sb + ((d.piece t u).1 + x) = t * d.db + ((d.piece t u).2.1 + x) + d.ss - d.ds := by omega
          rw [this]
          congr 1

/-- Every element of the copied range of a visited tile is copied by some piece. -/
theorem CIAll.cover (h : CIAll dims sos dOs) {T l : List Nat} (hT : Visited dims T)
    (hl : InBox (tileShape (dims.map CIDim.dN) (dims.map CIDim.db) T) l) (hc : InCopy dims (globIdx (dims.map CIDim.db) T l)) :
    ∃ U j, InRange (ubs dims T) (ues dims T) U ∧ InBox ((pieces dims T U).map (·.2.2)) j ∧ l = addIdx ((pieces dims T U).map (·.2.1)) j := by
  induction h generalizing T l with
  | nil =>
    match T, hT with
    | [], _ => cases l with
      | nil => exact ⟨[], [], by simp [ubs, ues, InRange], by simp [pieces], by simp⟩
      | cons => simp at hl
  | @cons d ds so sos dO dOs hv _ ih =>
    match T, l, hT, hl with
    | t :: T, x :: l, hT, hl =>
      simp only [Visited, List.map_cons, InRange] at hT
      simp only [List.map_cons, tileShape_cons, InBox_cons] at hl
      simp only [InCopy, List.map_cons, globIdx_cons, InRange] at hc
      obtain ⟨U, j, e1, e2, e3⟩ := ih hT.2 hl.2 hc.2
      obtain ⟨v1, v2⟩ := CIDim.cover hv hT.1.1 hT.1.2 hl.1 hc.1
      have hsame := hv.same
      have hsrc := hv.src
      obtain ⟨b1, b2, b3, b4, b5⟩ := CIDim.piece_spec hv hT.1.1 hT.1.2 v1 v2
      obtain ⟨w1, w2⟩ := b5 x (t * d.db + x + d.ss - d.ds) hl.1 (by omega) (by omega) rfl
      refine ⟨(t * d.db + x + d.ss - d.ds) / d.sb :: U, (x - (d.piece t ((t * d.db + x + d.ss - d.ds) / d.sb)).2.1) :: j, ?_, ?_, ?_⟩
      · simp only [ubs, ues, List.zipWith_cons_cons, InRange]; exact ⟨⟨v1, v2⟩, e1⟩
      · simp only [pieces, List.zip_cons_cons, List.zipWith_cons_cons, List.map_cons, InBox_cons]; exact ⟨by omega, e2⟩
      · simp only [pieces, List.zip_cons_cons, List.zipWith_cons_cons, List.map_cons, addIdx_cons, List.cons.injEq]; exact ⟨by omega, e3⟩

/-- A tile which is not visited has no copied element. -/
theorem CIAll.visited (h : CIAll dims sos dOs) {T l : List Nat} 
    (hl : InBox (tileShape (dims.map CIDim.dN) (dims.map CIDim.db) T) l) (hT : T.length = dims.length)
    (hc : InCopy dims (globIdx (dims.map CIDim.db) T l)) : Visited dims T := by
  induction h generalizing T l with
  | nil => cases T <;> simp_all [Visited, InRange]
  | @cons d ds so sos dO dOs hv _ ih =>
    match T, l, hT, hl with
    | t :: T, x :: l, hT, hl =>
      simp only [List.map_cons, tileShape_cons, InBox_cons] at hl
      simp only [InCopy, List.map_cons, globIdx_cons, InRange] at hc
      simp only [Visited, List.map_cons, InRange]
      exact ⟨CIDim.visit hv (by omega) hc.1, ih hl.2 (by simpa using hT) hc.2⟩

/-- `Partial`. -/
abbrev partialT (dims : List CIDim) (T tsh : List Nat) : Bool := (dims.zip (T.zip tsh)).any (fun p => p.1.partialTile p.2.1 p.2.2)

theorem CIAll.full (h : CIAll dims sos dOs) {T l : List Nat} (hT : Visited dims T)
    (hp : partialT dims T (tileShape (dims.map CIDim.dN) (dims.map CIDim.db) T) = false)
    (hl : InBox (tileShape (dims.map CIDim.dN) (dims.map CIDim.db) T) l) : InCopy dims (globIdx (dims.map CIDim.db) T l) := by
  induction h generalizing T l with
  | nil =>
    match T, hT with
    | [], _ => simp [InCopy, InRange]
  | @cons d ds so sos dO dOs hv _ ih =>
    match T, l, hT, hl with
    | t :: T, x :: l, hT, hl =>
      simp only [Visited, List.map_cons, InRange] at hT
      simp only [List.map_cons, tileShape_cons, InBox_cons] at hl
      simp only [partialT, List.map_cons, tileShape_cons, List.zip_cons_cons, List.any_cons, Bool.or_eq_false_iff] at hp
      simp only [InCopy, List.map_cons, globIdx_cons, InRange]
      exact ⟨CIDim.full hv hT.1.1 hT.1.2 hp.1 hl.1, ih hT.2 hp.2 hl.2⟩

end all

theorem box_top {a C D : List Nat} (ha : a.length = C.length) (hC : Pos C) (h : InBox D (addIdx a (C.map (· - 1)))) :
    List.Forall₂ (· ≤ ·) (addIdx a C) D := by
  induction C generalizing a D with
  | nil => cases D <;> simp_all
  | cons c C ih =>
    match a, D, ha, h with
    | x :: a, y :: D, ha, h =>
      simp only [List.map_cons, addIdx_cons, InBox_cons] at h
      simp only [Pos_cons] at hC
      simp only [addIdx_cons, List.forall₂_cons]
      exact ⟨by omega, ih (by simpa using ha) hC.2 h.2⟩
    | x :: a, [], ha, h => simp at h

theorem InBox_top {C : List Nat} (hC : Pos C) : InBox C (C.map (· - 1)) := by
  induction C with
  | nil => simp
  | cons c C ih => simp only [Pos_cons] at hC; simp only [List.map_cons, InBox_cons]; exact ⟨by omega, ih hC.2⟩

theorem shift_zero {a C : List Nat} (ha : a.length = C.length) (h : List.Forall₂ (· ≤ ·) (addIdx a C) C) : a = List.replicate C.length 0 := by
  induction C generalizing a with
  | nil => simpa using ha
  | cons c C ih =>
    match a, ha with
    | x :: a, ha =>
      simp only [addIdx_cons, List.forall₂_cons] at h
      simp only [List.length_cons, List.replicate_succ, List.cons.injEq]
      exact ⟨by omega, ih (by simpa using ha) h.2⟩

theorem forall₂_le_antisymm {C D : List Nat} (h : List.Forall₂ (· ≤ ·) C D) (h' : List.Forall₂ (· ≤ ·) D C) : C = D := by
  induction h with
  | nil => rfl
  | cons h1 _ ih =>
    simp only [List.forall₂_cons] at h'
    rw [ih h'.2, Nat.le_antisymm h1 h'.1]

/-- A box of shape `C` shifted by `a` that fills the box `D` is the box `D`. -/
theorem box_fill {a C D : List Nat} (ha : a.length = C.length) (hC : Pos C) (hD : Pos D)
    (h : ∀ j, InBox C j → InBox D (addIdx a j)) (h' : ∀ l, InBox D l → ∃ j, InBox C j ∧ l = addIdx a j) :
    a = List.replicate C.length 0 ∧ C = D := by
  have h1 := box_top ha hC (h _ (InBox_top hC))
  have hla : ∀ j, InBox C j → (addIdx a j).length = C.length := fun j hj => by rw [addIdx_length (by rw [hj.length, ha]), ha]
  have hlen : C.length = D.length := by
    have := h1.length_eq; rw [addIdx_length (by rw [ha])] at this; omega
  have ha0 : a = List.replicate C.length 0 := by
    obtain ⟨j, hj, he⟩ := h' (unlin D 0) (unlin_inBox hD 0)
    rw [unlin_zero] at he
    have e0 : ∀ (a j : List Nat) n, a.length = n → j.length = n → List.replicate n 0 = addIdx a j → a = List.replicate n 0 := by
      intro a
      induction a with
      | nil => rintro j n rfl _ _; rfl
      | cons x a ih =>
        rintro j n rfl hj h
        cases j with
        | nil => simp at hj
        | cons y j =>
          simp only [List.length_cons, List.replicate_succ, addIdx_cons, List.cons.injEq] at h hj ⊢
          exact ⟨by omega, ih j _ rfl (by simpa using hj) h.2⟩
    rw [hlen]
    exact e0 a j _ (by omega) (by rw [hj.length, hlen]) he
  refine ⟨ha0, forall₂_le_antisymm ?_ ?_⟩
  · rw [ha0, addIdx_replicate_zero rfl] at h1; exact h1
  · have h2 := box_top (a := List.replicate D.length 0) (C := D) (D := C) (by simp) hD (by
      rw [addIdx_replicate_zero (by simp)]
      obtain ⟨j, hj, he⟩ := h' _ (InBox_top hD)
      rw [he, ha0, addIdx_replicate_zero hj.length]; exact hj)
    rwa [addIdx_replicate_zero rfl] at h2

section tensor
variable {src dst : Tensor} {dims : List CIDim} {sos dOs : List Int} {s : Store α}

/-- The dimensions describe these tensors. -/
structure CIDescr (src dst : Tensor) (dims : List CIDim) : Prop where
  sN : dims.map CIDim.sN = src.shape
  sb : dims.map CIDim.sb = src.basetile
  dN : dims.map CIDim.dN = dst.shape
  db : dims.map CIDim.db = dst.basetile

theorem ciTile_spec (hs : src.WF) (hd : dst.WF) (hde : CIDescr src dst dims) (hne : dims ≠ [])
    (h : CIAll dims sos dOs) (has : src.Alloc s) (had : dst.Alloc s) (hdef : src.Defined s) {T : List Nat} (hT : Visited dims T) :
    InBox dst.grid T ∧ ∃ ts, ciTile src dst dims T = .ok ts ∧
      (∀ t ∈ ts, t.out = (dst.id, lin dst.grid T) ∧ ∀ k ∈ t.reads, k.1 = src.id) ∧
      ∃ b', foldBuf s ts (s (dst.id, lin dst.grid T)) = .ok b' ∧ b'.size = (s (dst.id, lin dst.grid T)).size ∧
        ∀ l, InBox (dst.tshape T) l →
          (InCopy dims (globIdx dst.basetile T l) → b'.data (lin (dst.tshape T) l) = src.get s (srcIdx dims (globIdx dst.basetile T l))) ∧
          (¬ InCopy dims (globIdx dst.basetile T l) → b'.data (lin (dst.tshape T) l) = (s (dst.id, lin dst.grid T)).data (lin (dst.tshape T) l)) := by
  have hRU := h.rangeU hT
  have piece := fun U hU => h.piece (U := U) hT hU
  have cover := fun l hl hc => h.cover (l := l) hT hl hc
  have full := fun l hp hl => h.full (l := l) hT hp hl
  rw [hde.sN, hde.sb, hde.dN, hde.db] at piece
  rw [hde.dN, hde.db] at cover full
  have hub : InRange (ubs dims T) (ues dims T) (ubs dims T) := by
    refine hRU.inRange.2 ⟨unlin (subIdx (ues dims T) (ubs dims T)) 0, unlin_inBox hRU.pos 0, ?_⟩
    rw [unlin_zero, addIdx_zero]
    have : ∀ b e, RangeOK b e → (subIdx e b).length = b.length := by
      intro b
      induction b with
      | nil => intro e; cases e <;> simp [subIdx]
      | cons x b ih => intro e h; cases e with
        | nil => simp [RangeOK] at h
        | cons y e => simp only [RangeOK] at h; simp [subIdx, ih e h.2]
    exact this _ _ hRU
  obtain ⟨hTg, hUg, hplen, hppos, hpp⟩ := piece _ hub
  refine ⟨hTg, ?_⟩
  have htat : tileAt dst T = .ok ((dst.id, lin dst.grid T), dst.tshape T) := by
    simp only [tileAt, Tensor.handleAt_ok (T := dst) hTg, Tensor.tshapeAt_ok (T := dst) hTg, M.bind_ok]
  have huat : ∀ U, InRange (ubs dims T) (ues dims T) U → tileAt src U = .ok ((src.id, lin src.grid U), src.tshape U) := by
    intro U hU
    have hg : InBox src.grid U := (piece U hU).2.1
    simp only [tileAt, Tensor.handleAt_ok hg, Tensor.tshapeAt_ok hg, M.bind_ok]
  have hplen' : ∀ U, InRange (ubs dims T) (ues dims T) U → (pieces dims T U).length = dims.length := fun U hU => (piece U hU).2.2.1
  simp only [ciTile, htat, M.bind_ok, huat _ hub, CIAll.first]
  let task : List Nat → WMode → Task1 α := fun U m =>
    submitSubcopy ((pieces dims T U).map (·.1)) (strideFrom 1 (src.tshape U)) ((pieces dims T U).map (·.2.1)) (strideFrom 1 (dst.tshape T))
      ((pieces dims T U).map (·.2.2)) (src.id, lin src.grid U) (dst.id, lin dst.grid T) m
  have hcnt := boxCount_eq hRU
  set mode : WMode := if partialT dims T (dst.tshape T) = true then .RW else .W with hmode
  by_cases hcond : boxCount (ubs dims T) (ues dims T) = 1 ∧ mode = WMode.W ∧ (pieces dims T (ubs dims T)).map (·.2.2) = src.tshape (ubs dims T)
  · -- the whole tile is copied at once
    rw [if_pos hcond]
    obtain ⟨hn1, hmode', hshape⟩ := hcond
    have hpart : partialT dims T (dst.tshape T) = false := by
      by_contra hp
      rw [Bool.not_eq_false] at hp
      rw [hmode, if_pos hp] at hmode'
      cases hmode'
    have huniq : ∀ U, InRange (ubs dims T) (ues dims T) U → U = ubs dims T := by
      intro U hU
      obtain ⟨j, hj, rfl⟩ := hRU.inRange.1 hU
      obtain ⟨j', hj', he⟩ := hRU.inRange.1 hub
      have h1 : lin (subIdx (ues dims T) (ubs dims T)) j = 0 := by
        have := lin_lt hj; rw [← hcnt] at this; omega
      have h2 : lin (subIdx (ues dims T) (ubs dims T)) j' = 0 := by
        have := lin_lt hj'; rw [← hcnt] at this; omega
      rw [lin_inj hj hj' (by rw [h1, h2]), ← he]
    have hfill := box_fill (a := (pieces dims T (ubs dims T)).map (fun p : Nat × Nat × Nat => p.2.1)) (C := (pieces dims T (ubs dims T)).map (fun p : Nat × Nat × Nat => p.2.2)) (D := dst.tshape T)
      (by simp) hppos (hd.tshape_pos hTg) (fun j hj => (hpp j hj).2.1)
      (by
        intro l hl
        obtain ⟨U, j, e1, e2, e3⟩ := cover l hl (full l hpart hl)
        rw [huniq U e1] at e2 e3
        exact ⟨j, e2, e3⟩)
    have hz := shift_zero (a := (pieces dims T (ubs dims T)).map (fun p : Nat × Nat × Nat => p.1)) (C := (pieces dims T (ubs dims T)).map (fun p : Nat × Nat × Nat => p.2.2)) (by simp)
      (box_top (by simp) hppos (by
        have := (hpp _ (InBox_top hppos)).1
        rw [show tileShape src.shape src.basetile (ubs dims T) = src.tshape (ubs dims T) from rfl, ← hshape] at this
        exact this))
    have hsz : (s (src.id, lin src.grid (ubs dims T))).size = (s (dst.id, lin dst.grid T)).size := by
      rw [has.size hUg, had.size hTg, ← hfill.2, hshape]
    refine ⟨_, rfl, ?_, _, copyTask_ok hsz, rfl, ?_⟩
    · intro t ht; simp at ht; subst ht; simp [submitCopy]
    · intro l hl
      refine ⟨fun _ => ?_, fun hc => absurd (full l hpart hl) hc⟩
      have hl' : InBox ((pieces dims T (ubs dims T)).map (fun p : Nat × Nat × Nat => p.2.2)) l := by rw [hfill.2]; exact hl
      obtain ⟨q1, q2, q3, q4⟩ := hpp l hl'
      rw [hfill.1, addIdx_replicate_zero hl'.length] at q4
      rw [hz, addIdx_replicate_zero hl'.length] at q1 q4
      rw [← q4]
      have hg := hs.get_glob (s := s) hUg q1
      rw [hg]
      simp only
      rw [if_pos]
      · rw [← hfill.2, hshape]
      · rw [hsz, had.size hTg]; exact lin_lt hl
  · -- one task per source tile
    rw [if_neg hcond]
    have hloop := odoLoop1_ok (next := boxNext (ubs dims T) (ues dims T))
      (body := fun (_ : Nat) uindex => do
        let f ← tileAt src uindex
        .ok [submitSubcopy (α := α) ((pieces dims T uindex).map (fun p : Nat × Nat × Nat => p.1)) (strideFrom 1 f.2) ((pieces dims T uindex).map (fun p : Nat × Nat × Nat => p.2.1))
          (strideFrom 1 (dst.tshape T)) ((pieces dims T uindex).map (fun p : Nat × Nat × Nat => p.2.2)) f.1 (dst.id, lin dst.grid T) .RW])
      (S := fun i => addIdx (ubs dims T) (unlin (subIdx (ues dims T) (ubs dims T)) i))
      (g := fun i => [task (addIdx (ubs dims T) (unlin (subIdx (ues dims T) (ubs dims T)) i)) .RW])
      (n := boxCount (ubs dims T) (ues dims T))
      (fun i hi => boxNext_spec hRU (by rw [← hcnt]; exact hi))
      (by
        intro i hi
        have : InRange (ubs dims T) (ues dims T) (addIdx (ubs dims T) (unlin (subIdx (ues dims T) (ubs dims T)) i)) :=
          hRU.inRange.2 ⟨_, unlin_inBox hRU.pos i, rfl⟩
        simp only [huat _ this, M.bind_ok]
        rfl)
    have hstart : addIdx (ubs dims T) (unlin (subIdx (ues dims T) (ubs dims T)) 0) = ubs dims T := by
      obtain ⟨j', hj', he⟩ := hRU.inRange.1 hub
      rw [unlin_zero, addIdx_zero]
      have := hj'.length
      have h3 := congrArg List.length he
      have : ∀ b e, RangeOK b e → (subIdx e b).length = b.length := by
        intro b
        induction b with
        | nil => intro e; cases e <;> simp [subIdx]
        | cons x b ih => intro e h; cases e with
          | nil => simp [RangeOK] at h
          | cons y e => simp only [RangeOK] at h; simp [subIdx, ih e h.2]
      exact this _ _ hRU
    simp only [hstart] at hloop
    rw [hloop, M.bind_ok]
    have hfm : ∀ L : List Nat, L.flatMap (fun i => [task (addIdx (ubs dims T) (unlin (subIdx (ues dims T) (ubs dims T)) i)) .RW]) =
        L.map (fun i => task (addIdx (ubs dims T) (unlin (subIdx (ues dims T) (ubs dims T)) i)) .RW) := by
      intro L
      induction L with
      | nil => rfl
      | cons a l ih => simp [ih]
    rw [hfm]
    set rest := (List.range' 1 (boxCount (ubs dims T) (ues dims T) - 1)).map
      (fun i => task (addIdx (ubs dims T) (unlin (subIdx (ues dims T) (ubs dims T)) i)) .RW) with hrest
    refine ⟨task (ubs dims T) mode :: rest, rfl, ?_, ?_⟩
    · intro t ht
      rcases List.mem_cons.1 ht with rfl | ht
      · simp [task, submitSubcopy]
      · simp only [hrest, List.mem_map] at ht
        obtain ⟨i, -, rfl⟩ := ht
        simp [task, submitSubcopy]
    have hmem : ∀ t ∈ task (ubs dims T) mode :: rest, ∃ U m, InRange (ubs dims T) (ues dims T) U ∧ t = task U m := by
      intro t ht
      rcases List.mem_cons.1 ht with rfl | ht
      · exact ⟨_, _, hub, rfl⟩
      · simp only [hrest, List.mem_map] at ht
        obtain ⟨i, -, rfl⟩ := ht
        exact ⟨_, _, hRU.inRange.2 ⟨_, unlin_inBox hRU.pos i, rfl⟩, rfl⟩
    obtain ⟨b', e, z, cov⟩ := foldBuf_cover_first (s := s) (N := (dst.tshape T).prod) (D := dst.tshape T)
      (P := fun t l => ∃ U j, InRange (ubs dims T) (ues dims T) U ∧ t.reads = [(src.id, lin src.grid U)] ∧
        InBox ((pieces dims T U).map (fun p : Nat × Nat × Nat => p.2.2)) j ∧ l = addIdx ((pieces dims T U).map (fun p : Nat × Nat × Nat => p.2.1)) j)
      (v := fun l => src.get s (srcIdx dims (globIdx dst.basetile T l))) (t0 := task (ubs dims T) mode) (ts := rest)
      (by intro t ht; simp only [hrest, List.mem_map] at ht; obtain ⟨i, -, rfl⟩ := ht; simp [task, submitSubcopy])
      (by
        intro t ht b hb
        obtain ⟨U, m, hU, rfl⟩ := hmem t ht
        obtain ⟨-, hUg, hpl, hpos, hpj⟩ := piece U hU
        have hget : ∀ j, InBox ((pieces dims T U).map (fun p : Nat × Nat × Nat => p.2.2)) j →
            (s (src.id, lin src.grid U)).data (lin (src.tshape U) (addIdx ((pieces dims T U).map (fun p : Nat × Nat × Nat => p.1)) j)) =
              src.get s (srcIdx dims (globIdx dst.basetile T (addIdx ((pieces dims T U).map (fun p : Nat × Nat × Nat => p.2.1)) j))) := by
          intro j hj
          obtain ⟨q1, q2, q3, q4⟩ := hpj j hj
          rw [← q4, hs.get_glob hUg q1]
        obtain ⟨b', e, k1, k2, k3⟩ := subcopy_tiles (α := α) (S := src.tshape U) (D := dst.tshape T)
          (srcStart := (pieces dims T U).map (fun p : Nat × Nat × Nat => p.1)) (dstStart := (pieces dims T U).map (fun p : Nat × Nat × Nat => p.2.1)) (box := (pieces dims T U).map (fun p : Nat × Nat × Nat => p.2.2))
          (src := s (src.id, lin src.grid U)) (dst := b)
          (by
            intro h0
            have := congrArg List.length h0
            rw [List.length_map, hpl, List.length_nil] at this
            exact hne (List.eq_nil_of_length_eq_zero this))
          hpos (by simp) (by simp) (fun j hj => (hpj j hj).1) (fun j hj => (hpj j hj).2.1) (has.size hUg) hb
          (by
            intro j hj
            rw [hget j hj, ← (hpj j hj).2.2.2]
            exact hdef _ (hs.glob hUg (hpj j hj).1).1)
        refine ⟨b', ?_, by rw [k1, hb], ?_⟩
        · simp only [task, submitSubcopy, List.map_cons, List.map_nil]
          exact e
        · intro l hl
          have hreads : (task U m).reads = [(src.id, lin src.grid U)] := rfl
          rw [hreads]
          constructor
          · rintro ⟨U', j, hU', hr, hj, rfl⟩
            have : U = U' := by
              simp only [List.cons.injEq, Prod.mk.injEq, true_and, and_true] at hr
              exact lin_inj hUg (piece U' hU').2.1 hr
            subst this
            rw [k2 j hj, hget j hj]
          · intro hno
            apply k3 l hl
            intro j hj heq
            exact hno ⟨U, j, hU, rfl, hj, heq⟩)
      (s (dst.id, lin dst.grid T)) (had.size hTg)
    refine ⟨b', e, by rw [z, had.size hTg], ?_⟩
    intro l hl
    constructor
    · intro hc
      apply (cov l hl).1
      obtain ⟨U, j, e1, e2, e3⟩ := cover l hl hc
      obtain ⟨k, hk, rfl⟩ := hRU.inRange.1 e1
      by_cases h0 : lin (subIdx (ues dims T) (ubs dims T)) k = 0
      · refine ⟨task (ubs dims T) mode, by simp, _, j, e1, ?_, e2, e3⟩
        have : addIdx (ubs dims T) k = ubs dims T := by
          rw [← unlin_lin hk, h0, hstart]
        rw [this]; rfl
      · refine ⟨task (addIdx (ubs dims T) k) .RW, List.mem_cons_of_mem _ (List.mem_map.2 ⟨lin (subIdx (ues dims T) (ubs dims T)) k, ?_, ?_⟩),
          _, j, e1, rfl, e2, e3⟩
        · rw [List.mem_range'_1]
          have := lin_lt hk; rw [← hcnt] at this; omega
        · rw [unlin_lin hk]
    · intro hc
      rw [(cov l hl).2]
      · have : mode = .RW := by
          rw [hmode, if_pos]
          by_contra hp
          rw [Bool.not_eq_true] at hp
          exact hc (full l hp hl)
        simp only [task, submitSubcopy, this]
        simp
      · rintro t - ⟨U, j, hU, -, hj, rfl⟩
        exact hc ((piece U hU).2.2.2.2 j hj).2.2.1

/-- `tensor::copy_intersection_async`. -/
theorem copyIntersectionAsync_spec (hs : src.WF) (hd : dst.WF) (hid : src.id ≠ dst.id) (hl1 : sos.length = src.shape.length)
    (hl2 : src.shape.length = dst.shape.length) (hl3 : dOs.length = dst.shape.length)
    (has : src.Alloc s) (had : dst.Alloc s) (hdef : src.Defined s) :
    ∃ tasks s', copyIntersectionAsync src sos dst dOs = .ok tasks ∧ runAll1 tasks s = .ok s' ∧
      (∀ I, InBox dst.shape I →
        (∀ J, InBox src.shape J → SamePlace sos J dOs I → dst.get s' I = src.get s J) ∧
        ((∀ J, InBox src.shape J → ¬ SamePlace sos J dOs I) → dst.get s' I = dst.get s I)) ∧
      OnlyChanged [dst.id] s s' ∧ dst.Alloc s' := by
  simp only [copyIntersectionAsync]
  rw [throwIf_neg (by simp [Tensor.ndim, hl1]), throwIf_neg (by simp [Tensor.ndim, hl2]), throwIf_neg (by simp [Tensor.ndim, hl3])]
  simp only [M.bind_ok]
  -- copying tile by tile between equally tiled tensors
  have hsame : ∀ (hsh : src.shape = dst.shape) (hb : src.basetile = dst.basetile) (hoff : sos = dOs),
      ∃ s', runAll1 ((List.range src.ntiles).flatMap (fun i => [submitCopy (α := α) (src.id, i) (dst.id, i)])) s = .ok s' ∧
      (∀ I, InBox dst.shape I →
        (∀ J, InBox src.shape J → SamePlace sos J dOs I → dst.get s' I = src.get s J) ∧
        ((∀ J, InBox src.shape J → ¬ SamePlace sos J dOs I) → dst.get s' I = dst.get s I)) ∧
      OnlyChanged [dst.id] s s' ∧ dst.Alloc s' := by
    intro hsh hb hoff
    have hgr : src.grid = dst.grid := by simp [Tensor.grid, hsh, hb]
    have hnt : src.ntiles = dst.ntiles := by simp [Tensor.ntiles, hgr]
    rw [hnt]
    have hts : ∀ t, src.tshape t = dst.tshape t := by intro t; simp [Tensor.tshape, hsh, hb]
    obtain ⟨s', a, b, c, d⟩ := run_tilewise hd had (gt := fun i => [submitCopy (α := α) (src.id, i) (dst.id, i)]) (fun I => src.get s I)
      (by intro i hi t ht; simp at ht; subst ht; rfl)
      (by intro i hi t ht; simp at ht; subst ht; simpa [submitCopy] using hid)
      (by
        intro t ht
        have hsz : (s (src.id, lin dst.grid t)).size = (s (dst.id, lin dst.grid t)).size := by
          rw [had.size ht, ← hgr, has.size (hgr ▸ ht), hts]
        refine ⟨_, copyTask_ok hsz, rfl, ?_⟩
        intro l hl
        simp only
        rw [if_pos (by rw [hsz, had.size ht]; exact lin_lt hl)]
        rw [← hb, hs.get_glob (t := t) (hgr ▸ ht) (by rw [hts]; exact hl), hgr, hts])
    refine ⟨s', a, ?_, c, d⟩
    have hsp : ∀ (O : List Int) (I J : List Nat), SamePlace O J O I → J = I := by
      intro O
      induction O with
      | nil => intro I J h; cases I <;> cases J <;> simp_all [SamePlace]
      | cons o O ih =>
        intro I J h
        match I, J, h with
        | i :: I, j :: J, h =>
          simp only [SamePlace] at h
          rw [ih I J h.2]; congr 1; omega
        | [], [], _ => rfl
    have hsp' : ∀ (O : List Int) (I : List Nat), I.length = O.length → SamePlace O I O I := by
      intro O
      induction O with
      | nil => intro I h; cases I <;> simp_all [SamePlace]
      | cons o O ih =>
        intro I h
        cases I with
        | nil => simp at h
        | cons i I => simp only [SamePlace, true_and]; exact ih I (by simpa using h)
    intro I hI
    refine ⟨?_, ?_⟩
    · intro J hJ hp
      rw [← hoff] at hp
      rw [hsp _ _ _ hp]; exact b I hI
    · intro hno
      exact absurd (by rw [← hoff]; exact hsp' sos I (by rw [hI.length, hl1, hl2])) (hno I (hsh ▸ hI))
  split
  · rename_i h0
    have hS : src.shape = [] := List.eq_nil_of_length_eq_zero h0
    have hD : dst.shape = [] := List.eq_nil_of_length_eq_zero (by rw [← hl2]; exact h0)
    have hBS : src.basetile = [] := List.eq_nil_of_length_eq_zero (by rw [hs.2.2, hS]; rfl)
    have hBD : dst.basetile = [] := List.eq_nil_of_length_eq_zero (by rw [hd.2.2, hD]; rfl)
    have hn1 : src.ntiles = 1 := by simp [Tensor.ntiles, Tensor.grid, hS]
    have hn2 : dst.ntiles = 1 := by simp [Tensor.ntiles, Tensor.grid, hD]
    rw [Tensor.handleL_ok (by omega), M.bind_ok, Tensor.handleL_ok (by omega), M.bind_ok]
    obtain ⟨s', a⟩ := hsame (by rw [hS, hD]) (by rw [hBS, hBD])
      (by rw [List.eq_nil_of_length_eq_zero (l := sos) (by rw [hl1]; exact h0), List.eq_nil_of_length_eq_zero (l := dOs) (by rw [hl3, hD]; rfl)])
    rw [hn1] at a
    exact ⟨_, s', rfl, a⟩
  · rename_i h0
    split
    · rename_i hc
      obtain ⟨s', a⟩ := hsame hc.2.1 hc.2.2 hc.1
      have hnt : src.ntiles = dst.ntiles := by simp [Tensor.ntiles, Tensor.grid, hc.2.1, hc.2.2]
      rw [forTasks_ok (g := fun i => [submitCopy (src.id, i) (dst.id, i)])
        (by intro i hi; simp only [Tensor.handleL_ok hi, Tensor.handleL_ok (T := dst) (i := i) (by omega), M.bind_ok])]
      exact ⟨_, s', rfl, a⟩
    · split
      · rename_i hnone
        refine ⟨[], s, rfl, rfl, ?_, fun _ _ => rfl, had⟩
        intro I hI
        exact ⟨fun J hJ hp => absurd hp (ciDims_none hnone I J hI hJ), fun _ => rfl⟩
      · rename_i dims hsome
        obtain ⟨q1, q2, q3, q4, h⟩ := ciDims_some hsome hl1.symm (by rw [hs.2.2, hl1]) (by rw [hl3, ← hl2, hl1]) (by rw [hl1, hl2])
          (by rw [hd.2.2, ← hl2, hl1]) hs.1 hs.2.1 hd.1 hd.2.1
        have hde : CIDescr src dst dims := ⟨q1, q2, q3, q4⟩
        have hdl : dims.length = dst.shape.length := by rw [← q3]; simp
        have hne : dims ≠ [] := by
          rintro rfl
          exact h0 (by simp only [Tensor.ndim, hl2, ← hdl]; rfl)
        have hRT := h.rangeT
        have hcnt := boxCount_eq hRT
        set B := dims.map CIDim.tb with hB
        set E := dims.map CIDim.te with hE
        have hvis : ∀ i, Visited dims (addIdx B (unlin (subIdx E B) i)) := fun i => hRT.inRange.2 ⟨_, unlin_inBox hRT.pos i, rfl⟩
        have tile := fun T hT => ciTile_spec (T := T) hs hd hde hne h has had hdef hT
        choose! hTg gts ets hts bT hbT using tile
        have hloop := odoLoop_ok (next := boxNext B E) (body := fun _ tindex => ciTile (α := α) src dst dims tindex)
          (S := fun i => addIdx B (unlin (subIdx E B) i)) (g := fun i => gts (addIdx B (unlin (subIdx E B) i))) (n := boxCount B E)
          (fun i hi => boxNext_spec hRT (by rw [← hcnt]; exact hi))
          (fun i hi => ets _ (hvis i))
        have hstart : addIdx B (unlin (subIdx E B) 0) = B := by
          rw [unlin_zero, addIdx_zero]
          have : ∀ b e, RangeOK b e → (subIdx e b).length = b.length := by
            intro b
            induction b with
            | nil => intro e; cases e <;> simp [subIdx]
            | cons x b ih => intro e h; cases e with
              | nil => simp [RangeOK] at h
              | cons y e => simp only [RangeOK] at h; simp [subIdx, ih e h.2]
          exact this _ _ hRT
        simp only [hstart] at hloop
        rw [hloop]
        classical
        obtain ⟨s', a, b, c, d⟩ := run_tensor hd had
          (ts := (List.range (boxCount B E)).flatMap (fun i => gts (addIdx B (unlin (subIdx E B) i))))
          (fun I => if InCopy dims I then src.get s (srcIdx dims I) else dst.get s I)
          (by
            intro t ht
            simp only [List.mem_flatMap, List.mem_range] at ht
            obtain ⟨i, hi, ht⟩ := ht
            exact ⟨_, lin_lt (hTg _ (hvis i)), (hts _ (hvis i) t ht).1⟩)
          (by
            intro t ht k hk
            simp only [List.mem_flatMap, List.mem_range] at ht
            obtain ⟨i, hi, ht⟩ := ht
            rw [(hts _ (hvis i) t ht).2 k hk]; exact hid)
          (by
            intro T hT
            have hTl : T.length = dims.length := by rw [hT.length, hd.grid_length, hdl]
            by_cases hv : Visited dims T
            · obtain ⟨j, hj, hjT⟩ := hRT.inRange.1 hv
              have hjl : lin (subIdx E B) j < boxCount B E := by rw [hcnt]; exact lin_lt hj
              rw [filter_flatMap_unique (lin (subIdx E B) j) hjl]
              · rw [unlin_lin hj, ← hjT]
                have : (gts T).filter (fun u => u.out = (dst.id, lin dst.grid T)) = gts T := by
                  rw [List.filter_eq_self]; intro u hu; simp [(hts T hv u hu).1]
                rw [this]
                obtain ⟨e1, e2, e3⟩ := hbT T hv
                refine ⟨_, e1, e2, ?_⟩
                intro l hl
                by_cases hc : InCopy dims (globIdx dst.basetile T l)
                · rw [if_pos hc]; exact (e3 l hl).1 hc
                · rw [if_neg hc, (e3 l hl).2 hc, hd.get_glob hT hl]
              · intro i hi hne u hu
                rw [(hts _ (hvis i) u hu).1]
                simp only [decide_eq_false_iff_not, Prod.mk.injEq, true_and]
                intro he
                apply hne
                have h1 := lin_inj (hTg _ (hvis i)) hT he
                rw [hjT] at h1
                have hlen : ∀ k, (unlin (subIdx E B) k).length = B.length := by
                  intro k
                  have := congrArg List.length hstart
                  rw [unlin_length]
                  have : ∀ b e, RangeOK b e → (subIdx e b).length = b.length := by
                    intro b
                    induction b with
                    | nil => intro e; cases e <;> simp [subIdx]
                    | cons x b ih => intro e h; cases e with
                      | nil => simp [RangeOK] at h
                      | cons y e => simp only [RangeOK] at h; simp [subIdx, ih e h.2]
                  exact this _ _ hRT
                have h2 := addIdx_inj (hlen i) (by rw [hj.length, ← unlin_length (k := 0), hlen 0]) h1
                rw [← h2, lin_unlin (by rw [← hcnt]; exact hi)]
            · have : ((List.range (boxCount B E)).flatMap (fun i => gts (addIdx B (unlin (subIdx E B) i)))).filter
                  (fun u => u.out = (dst.id, lin dst.grid T)) = [] := by
                rw [List.filter_eq_nil_iff]
                intro u hu
                simp only [List.mem_flatMap, List.mem_range] at hu
                obtain ⟨i, hi, hu⟩ := hu
                rw [(hts _ (hvis i) u hu).1]
                simp only [decide_eq_true_eq, Prod.mk.injEq, true_and]
                intro he
                rw [← lin_inj (hTg _ (hvis i)) hT he] at hv
                exact hv (hvis i)
              rw [this]
              refine ⟨_, rfl, rfl, ?_⟩
              intro l hl
              have hcl := h.visited (T := T) (l := l)
              rw [q3, q4] at hcl
              rw [if_neg (fun hc => hv (hcl hl hTl hc)), hd.get_glob hT hl])
        refine ⟨_, s', rfl, a, ?_, c, d⟩
        intro I hI
        have hci := h.copy_iff (I := I) (by rw [q3]; exact hI)
        rw [q1] at hci
        rw [b I hI]
        constructor
        · intro J hJ hp
          obtain ⟨w1, rfl⟩ := hci.2 J hJ hp
          rw [if_pos w1]
        · intro hno
          rw [if_neg]
          intro hc
          exact hno _ (hci.1 hc).1 (hci.1 hc).2

end tensor
end NNTile
