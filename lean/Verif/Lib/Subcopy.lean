import Verif.Lib.Odometer
/-! Correctness of the `subcopy` kernel. -/
namespace NNTile

theorem prod_foldl (l : List Nat) (a : Nat) : l.foldl (· * ·) a = a * l.prod := by
  induction l generalizing a with
  | nil => simp
  | cons x l ih => simp [ih, Nat.mul_assoc]

theorem offsetLoop_eq (s d : List Nat) (acc : Int) : offsetLoop s d acc = acc + (dot d s : Nat) := by
  induction s generalizing d acc with
  | nil => cases d <;> simp [offsetLoop]
  | cons x s ih => cases d with
    | nil => simp [offsetLoop]
    | cons y d => simp [offsetLoop, ih]; ring

theorem addIdx_unlin_zero {st sh : List Nat} (h : st.length = sh.length) : addIdx st (unlin sh 0) = st := by
  induction sh generalizing st with
  | nil => cases st <;> simp_all
  | cons c sh ih => cases st with
    | nil => simp at h
    | cons s st => simp at h; simp [ih h]

theorem dot_incHead {sd idx : List Nat} (h : sd.head? = some 1) (hne : idx ≠ []) : dot sd (incHead idx) = dot sd idx + 1 := by
  cases sd with
  | nil => simp at h
  | cons d sd => cases idx with
    | nil => exact absurd rfl hne
    | cons i idx => simp at h; subst h; simp; omega

theorem subcopy_spec {α : Type _} {sst sd sh dst dd : List Nat} {src buf : Buf α}
    (hne : sh ≠ []) (hsh : Pos sh)
    (h1 : sst.length = sh.length) (h2 : sd.length = sh.length) (h3 : dst.length = sh.length) (h4 : dd.length = sh.length)
    (hsd : sd.head? = some 1) (hdd : dd.head? = some 1)
    (hsrc : ∀ j, InBox sh j → dot sd (addIdx sst j) < src.size ∧ ∃ v, src.data (dot sd (addIdx sst j)) = some v)
    (hdst : ∀ j, InBox sh j → dot dd (addIdx dst j) < buf.size)
    (hinj : ∀ i j, InBox sh i → InBox sh j → dot dd (addIdx dst i) = dot dd (addIdx dst j) → i = j) :
    ∃ buf', subcopyKernel sst sd sh src dst dd buf = .ok buf' ∧ buf'.size = buf.size ∧
      (∀ j, InBox sh j → buf'.data (dot dd (addIdx dst j)) = src.data (dot sd (addIdx sst j))) ∧
      (∀ k, (∀ j, InBox sh j → k ≠ dot dd (addIdx dst j)) → buf'.data k = buf.data k) := by
  have hP := hsh.prod
  have hdinj : ∀ m n, m < sh.prod → n < sh.prod →
      dot dd (addIdx dst (unlin sh m)) = dot dd (addIdx dst (unlin sh n)) → m = n := by
    intro m n hm hn h
    have := hinj _ _ (unlin_inBox hsh m) (unlin_inBox hsh n) h
    rw [← lin_unlin hm, ← lin_unlin hn, this]
  cases sst with
  | nil => simp at h1; exact absurd h1.symm (by simpa using hne)
  | cons s0 ss => cases sd with
    | nil => simp at hsd
    | cons d0 sd' => cases dst with
      | nil => simp at h3; exact absurd h3.symm (by simpa using hne)
      | cons t0 ts => cases dd with
        | nil => simp at hdd
        | cons e0 td =>
          have ed0 : d0 = 1 := by simpa using hsd
          have ee0 : e0 = 1 := by simpa using hdd
          simp only [subcopyKernel, prod_foldl, Nat.one_mul]
          have ho1 : offsetLoop ss sd' (s0 : Int) = (dot (d0 :: sd') (addIdx (s0 :: ss) (unlin sh 0)) : Nat) := by
            rw [offsetLoop_eq, addIdx_unlin_zero h1, ed0]; simp
          have ho2 : offsetLoop ts td (t0 : Int) = (dot (e0 :: td) (addIdx (t0 :: ts) (unlin sh 0)) : Nat) := by
            rw [offsetLoop_eq, addIdx_unlin_zero h3, ee0]; simp
          rw [ho1, ho2]
          have rdI : ∀ j, InBox sh j → ∃ v, src.data (dot (d0 :: sd') (addIdx (s0 :: ss) j)) = some v ∧
              src.rdI (dot (d0 :: sd') (addIdx (s0 :: ss) j) : Nat) = .ok v := by
            intro j hj
            obtain ⟨ha, v, hv⟩ := hsrc j hj
            refine ⟨v, hv, ?_⟩
            simp only [Buf.rdI]
            rw [if_neg (by omega), Int.toNat_natCast, Buf.rd_ok ha hv]
          have wrI : ∀ (b : Buf α) j v, b.size = buf.size → InBox sh j →
              b.wrI (dot (e0 :: td) (addIdx (t0 :: ts) j) : Nat) v =
              .ok ⟨buf.size, fun k => if k = dot (e0 :: td) (addIdx (t0 :: ts) j) then some v else b.data k⟩ := by
            intro b j v hb hj
            simp only [Buf.wrI]
            rw [if_neg (by omega), Int.toNat_natCast, Buf.wr_ok v (by rw [hb]; exact hdst j hj), hb]
          obtain ⟨v0, hv0, hr0⟩ := rdI _ (unlin_inBox hsh 0)
          rw [hr0, M.bind_ok, wrI buf _ v0 rfl (unlin_inBox hsh 0), M.bind_ok]
          obtain ⟨st, hst, hI⟩ := forN_inv (n := sh.prod - 1)
            (f := fun _ st => subcopyBody (s0 :: ss) (d0 :: sd') sh src (t0 :: ts) (e0 :: td) st)
            (s := ⟨s0 :: ss, t0 :: ts, (dot (d0 :: sd') (addIdx (s0 :: ss) (unlin sh 0)) : Nat) + 1,
              (dot (e0 :: td) (addIdx (t0 :: ts) (unlin sh 0)) : Nat) + 1,
              ⟨buf.size, fun k => if k = dot (e0 :: td) (addIdx (t0 :: ts) (unlin sh 0)) then some v0 else buf.data k⟩⟩)
            (fun i st => st.srcIdx = addIdx (s0 :: ss) (unlin sh i) ∧ st.dstIdx = addIdx (t0 :: ts) (unlin sh i) ∧
              st.srcOff = (dot (d0 :: sd') (addIdx (s0 :: ss) (unlin sh i)) : Nat) + 1 ∧
              st.dstOff = (dot (e0 :: td) (addIdx (t0 :: ts) (unlin sh i)) : Nat) + 1 ∧
              st.dst.size = buf.size ∧
              (∀ m, m ≤ i → st.dst.data (dot (e0 :: td) (addIdx (t0 :: ts) (unlin sh m)))
                = src.data (dot (d0 :: sd') (addIdx (s0 :: ss) (unlin sh m)))) ∧
              (∀ k, (∀ m, m ≤ i → k ≠ dot (e0 :: td) (addIdx (t0 :: ts) (unlin sh m))) → st.dst.data k = buf.data k))
            ⟨(addIdx_unlin_zero h1).symm, (addIdx_unlin_zero h3).symm, rfl, rfl, rfl, by
              intro m hm
              have : m = 0 := by omega
              subst this; simp [hv0], by
              intro k hk
              simp [hk 0 le_rfl]⟩
            (by
              rintro i hi st ⟨i1, i2, i3, i4, i5, i6, i7⟩
              have hbox := unlin_inBox hsh i
              have hlin : lin sh (unlin sh i) = i := lin_unlin (by omega)
              have hlt : lin sh (unlin sh i) + 1 < sh.prod := by rw [hlin]; omega
              have hn : nxt sh (unlin sh i) = unlin sh (i + 1) := by rw [nxt_eq_unlin hbox hlt, hlin]
              have c1 := subcopyCarry_spec (st := s0 :: ss) (sd := d0 :: sd') h1 h2 hbox hlt 0
              have c2 := subcopyCarry_spec (st := t0 :: ts) (sd := e0 :: td) h3 h4 hbox hlt 0
              have hl : (unlin sh i).length ≠ 0 := by simpa using hne
              have ne1 : addIdx (s0 :: ss) (unlin sh i) ≠ [] := by
                intro h; have := congrArg List.length h
                rw [addIdx_length (by simp at h1 ⊢; omega)] at this; simp at this
              have ne2 : addIdx (t0 :: ts) (unlin sh i) ≠ [] := by
                intro h; have := congrArg List.length h
                rw [addIdx_length (by simp at h3 ⊢; omega)] at this; simp at this
              have e1 : st.srcOff = 0 + (dot (d0 :: sd') (incHead (addIdx (s0 :: ss) (unlin sh i))) : Nat) := by
                rw [i3, dot_incHead hsd ne1]; push_cast; ring
              have e2 : st.dstOff = 0 + (dot (e0 :: td) (incHead (addIdx (t0 :: ts) (unlin sh i))) : Nat) := by
                rw [i4, dot_incHead hdd ne2]; push_cast; ring
              rw [hn, Int.zero_add] at c1 c2
              rw [Int.zero_add] at e1 e2
              rw [← e1] at c1
              rw [← e2] at c2
              obtain ⟨v, hv, hr⟩ := rdI _ (unlin_inBox hsh (i+1))
              simp only [subcopyBody, i1, i2, c1, c2, M.bind_ok, Int.zero_add, hr, wrI st.dst _ v i5 (unlin_inBox hsh (i+1))]
              refine ⟨_, rfl, rfl, rfl, rfl, rfl, rfl, ?_, ?_⟩
              · intro m hm
                by_cases hmi : m = i + 1
                · subst hmi; simp [hv]
                · have : dot (e0 :: td) (addIdx (t0 :: ts) (unlin sh m)) ≠ dot (e0 :: td) (addIdx (t0 :: ts) (unlin sh (i+1))) :=
                    fun h => hmi (hdinj m (i+1) (by omega) (by omega) h)
                  simp only [this, if_false]
                  exact i6 m (by omega)
              · intro k hk
                simp only [hk (i+1) le_rfl, if_false]
                exact i7 k (fun m hm => hk m (by omega)))
          rw [hst, M.bind_ok]
          obtain ⟨-, -, -, -, i5, i6, i7⟩ := hI
          refine ⟨_, rfl, i5, ?_, ?_⟩
          · intro j hj
            have := i6 (lin sh j) (by have := lin_lt hj; omega)
            rwa [unlin_lin hj] at this
          · intro k hk
            exact i7 k (fun m hm => hk _ (unlin_inBox hsh m))

end NNTile
