import Verif.Lib.Odometer
import Verif.Spec.Random
/-! Correctness of the `randn` kernel. -/
namespace NNTile

theorem randnShift_eq {st us : List Nat} (h : us.length = st.length) : randnShift st us = lin us st := by
  induction st generalizing us with
  | nil => cases us <;> simp_all [randnShift]
  | cons s st ih => cases us with
    | nil => simp at h
    | cons u us =>
      simp at h
      cases st with
      | nil => simp at h; subst h; simp [randnShift]
      | cons s1 st => simp only [randnShift, lin_cons]; rw [ih (by simpa using h)]; simp [Nat.mul_comm]

theorem lin_nxt_gt {sh us j : List Nat} (h : InBox sh j) (hlt : lin sh j + 1 < sh.prod)
    (hle : List.Forall₂ (· ≤ ·) sh us) : lin us j + 1 ≤ lin us (nxt sh j) := by
  induction hle generalizing j with
  | nil => simp at hlt
  | @cons s u sh us hsu hle ih =>
    cases j with
    | nil => simp at h
    | cons b j =>
      simp only [InBox_cons] at h
      simp only [lin_cons, List.prod_cons] at hlt
      simp only [nxt]
      by_cases hb : b + 1 = s
      · have h1 : lin sh j + 1 < sh.prod := by
          have : s * (lin sh j + 1) < s * sh.prod := by rw [Nat.mul_add]; omega
          exact Nat.lt_of_mul_lt_mul_left this
        rw [if_pos hb]
        simp only [lin_cons]
        have := Nat.mul_le_mul_left u (ih h.2 h1)
        rw [Nat.mul_add] at this
        omega
      · rw [if_neg hb]; simp; omega

theorem randnColumn_spec {α υ : Type _} {uniform : Seed → υ} {normal : υ → υ → α} {d0 n : Nat} {seed : Seed} {k p : Nat} {buf : Buf α}
    (hin : ∀ i, i < n → p + i * d0 < buf.size) (hinj : ∀ i j, i < n → j < n → p + i * d0 = p + j * d0 → i = j) :
    ∃ buf', randnColumn uniform normal d0 n ⟨rndStep^[2 * k] seed, buf, (p : Int)⟩
        = .ok ⟨rndStep^[2 * (k + n)] seed, buf', ((p + n * d0 : Nat) : Int)⟩ ∧ buf'.size = buf.size ∧
      (∀ i, i < n → buf'.data (p + i * d0) = some (nthNormal uniform normal seed (k + i))) ∧
      (∀ c, (∀ i, i < n → c ≠ p + i * d0) → buf'.data c = buf.data c) := by
  simp only [randnColumn]
  obtain ⟨st, hst, h1, h2, h3, h4, h5⟩ := forN_inv (n := n)
    (f := fun _ (st : RandnSt α) => do
      let r := chameleonRandn uniform normal st.seed
      let buf ← st.buf.wrI st.ptr r.1
      .ok ⟨r.2, buf, st.ptr + d0⟩)
    (s := ⟨rndStep^[2 * k] seed, buf, (p : Int)⟩)
    (fun m st => st.seed = rndStep^[2 * (k + m)] seed ∧ st.ptr = ((p + m * d0 : Nat) : Int) ∧ st.buf.size = buf.size ∧
      (∀ i, i < m → st.buf.data (p + i * d0) = some (nthNormal uniform normal seed (k + i))) ∧
      (∀ c, (∀ i, i < m → c ≠ p + i * d0) → st.buf.data c = buf.data c))
    ⟨rfl, by simp, rfl, by intro i hi; omega, by intros; rfl⟩
    (by
      rintro m hm ⟨sd, b, q⟩ ⟨i1, i2, i3, i4, i5⟩
      simp only at i1 i2 i3 i4 i5
      subst i1 i2
      simp only [Buf.wrI]
      rw [if_neg (by omega), Int.toNat_natCast, Buf.wr_ok _ (by rw [i3]; exact hin m hm), M.bind_ok]
      refine ⟨_, rfl, ?_, ?_, i3, ?_, ?_⟩
      · simp only [chameleonRandn]
        rw [show 2 * (k + (m + 1)) = 2 * (k + m) + 1 + 1 by ring, Function.iterate_succ_apply', Function.iterate_succ_apply']
      · simp only; push_cast; ring
      · intro i hi
        by_cases him : i = m
        · subst him
          simp only [if_true, nthNormal, chameleonRandn]
          rw [Function.iterate_succ_apply']
        · have : p + i * d0 ≠ p + m * d0 := fun h => him (hinj i m (by omega) hm h)
          simp only [this, if_false]
          exact i4 i (by omega)
      · intro c hc
        have := hc m (by omega)
        simp only [this, if_false]
        exact i5 c (fun i hi => hc i (by omega)))
  refine ⟨st.buf, ?_, h3, h4, h5⟩
  rw [hst]
  cases st
  simp_all

theorem dot_incHead' {d : Nat} {sd idx : List Nat} (hne : idx ≠ []) : dot (d :: sd) (incHead idx) = dot (d :: sd) idx + d := by
  cases idx with
  | nil => exact absurd rfl hne
  | cons i idx => simp; ring

theorem lin_incHead {us idx : List Nat} (hne : idx ≠ []) (hu : us ≠ []) : lin us (incHead idx) = lin us idx + 1 := by
  cases idx with
  | nil => exact absurd rfl hne
  | cons i idx => cases us with
    | nil => exact absurd rfl hu
    | cons u us => simp; ring

/-- Full correctness of the kernel for arbitrary strides. -/
theorem randn_spec {α υ : Type _} {uniform : Seed → υ} {normal : υ → υ → α} {seed : Seed}
    {start shape U stride : List Nat} {buf : Buf α}
    (hne : shape ≠ []) (hsh : Pos shape) (h1 : start.length = shape.length) (h2 : stride.length = shape.length)
    (hU : List.Forall₂ (· ≤ ·) shape U)
    (hin : ∀ j, InBox shape j → dot stride j < buf.size)
    (hinj : ∀ i j, InBox shape i → InBox shape j → dot stride i = dot stride j → i = j) :
    ∃ buf', randnKernel uniform normal shape.prod seed start shape U stride buf = .ok buf' ∧ buf'.size = buf.size ∧
      (∀ j, InBox shape j → buf'.data (dot stride j) = some (nthNormal uniform normal seed (lin U (addIdx start j)))) ∧
      (∀ c, (∀ j, InBox shape j → c ≠ dot stride j) → buf'.data c = buf.data c) := by
  cases hU with
  | nil => exact absurd rfl hne
  | @cons n0 u0 sr ur hle0 hle =>
    cases stride with
    | nil => simp at h2
    | cons d0 dr =>
      simp only [List.length_cons, Nat.add_right_cancel_iff] at h2
      simp only [Pos_cons] at hsh
      have hlu : ur.length = sr.length := hle.length_eq.symm
      simp only [randnKernel]
      rw [if_neg (by omega), List.prod_cons, Nat.mul_div_cancel_left _ hsh.1, randnShift_eq (by simp [h1, hlu]), rndJump_ofNat]
      set S0 := lin (u0 :: ur) start with hS0
      -- one column
      have col : ∀ (c : List Nat), InBox sr c → ∀ b : Buf α, b.size = buf.size →
          ∃ b', randnColumn uniform normal d0 n0 ⟨rndStep^[2 * (S0 + u0 * lin ur c)] seed, b, ((dot dr c : Nat) : Int)⟩
            = .ok ⟨rndStep^[2 * (S0 + u0 * lin ur c + n0)] seed, b', ((dot dr c + n0 * d0 : Nat) : Int)⟩ ∧ b'.size = buf.size ∧
            (∀ i, i < n0 → b'.data (dot (d0 :: dr) (i :: c)) = some (nthNormal uniform normal seed (S0 + u0 * lin ur c + i))) ∧
            (∀ x, (∀ i, i < n0 → x ≠ dot (d0 :: dr) (i :: c)) → b'.data x = b.data x) := by
        intro c hc b hb
        have pos : ∀ i, dot dr c + i * d0 = dot (d0 :: dr) (i :: c) := fun i => by simp; ring
        obtain ⟨b', e, k1, k2, k3⟩ := randnColumn_spec (uniform := uniform) (normal := normal) (d0 := d0) (n := n0) (seed := seed)
          (k := S0 + u0 * lin ur c) (p := dot dr c) (buf := b)
          (by intro i hi; rw [pos, hb]; exact hin _ (by simp [hi, hc]))
          (by
            intro i j hi hj h
            rw [pos, pos] at h
            have := hinj (i :: c) (j :: c) (by simp [hi, hc]) (by simp [hj, hc]) h
            simpa using this)
        refine ⟨b', e, by rw [k1, hb], ?_, ?_⟩
        · intro i hi; rw [← pos]; exact k2 i hi
        · intro x hx; exact k3 x (fun i hi => by rw [pos]; exact hx i hi)
      have hc0 : InBox sr (unlin sr 0) := unlin_inBox hsh.2 0
      have hz : sr.map (fun _ => 0) = unlin sr 0 := by
        clear * -
        induction sr with
        | nil => rfl
        | cons a s ih => simp [ih]
      have hdz : ∀ (d s : List Nat), dot d (unlin s 0) = 0 := by
        intro d s
        induction s generalizing d with
        | nil => simp
        | cons a s ih => cases d <;> simp [ih]
      have hlz : ∀ (d s : List Nat), lin d (unlin s 0) = 0 := by
        intro d s
        induction s generalizing d with
        | nil => simp
        | cons a s ih => cases d <;> simp [ih]
      obtain ⟨b0, e0, a1, a2, a3⟩ := col _ hc0 buf rfl
      rw [hdz, hlz] at e0
      simp only [Nat.mul_zero, Nat.add_zero, Nat.zero_add] at e0
      rw [show (0 : Int) = ((0 : Nat) : Int) from rfl, e0, M.bind_ok, hz]
      have hsrP := hsh.2.prod
      obtain ⟨st, hst, hI⟩ := forN_inv (n := sr.prod - 1)
        (f := fun _ p => randnBody uniform normal n0 u0 d0 sr ur dr p)
        (s := (⟨rndStep^[2 * (S0 + n0)] seed, b0, ((n0 * d0 : Nat) : Int)⟩, unlin sr 0))
        (fun m p => p.2 = unlin sr m ∧ p.1.seed = rndStep^[2 * (S0 + u0 * lin ur (unlin sr m) + n0)] seed ∧
          p.1.ptr = ((dot dr (unlin sr m) + n0 * d0 : Nat) : Int) ∧ p.1.buf.size = buf.size ∧
          (∀ q i, q ≤ m → i < n0 → p.1.buf.data (dot (d0 :: dr) (i :: unlin sr q))
            = some (nthNormal uniform normal seed (S0 + u0 * lin ur (unlin sr q) + i))) ∧
          (∀ x, (∀ q i, q ≤ m → i < n0 → x ≠ dot (d0 :: dr) (i :: unlin sr q)) → p.1.buf.data x = buf.data x))
        ⟨rfl, by simp [hlz], by simp [hdz], a1, by
            intro q i hq hi
            have : q = 0 := by omega
            subst this; exact a2 i hi, by
            intro x hx; exact a3 x (fun i hi => hx 0 i le_rfl hi)⟩
        (by
          rintro m hm ⟨⟨sd, b, ptr⟩, idx⟩ ⟨i1, i2, i3, i4, i5, i6⟩
          simp only at i1 i2 i3 i4 i5 i6
          subst i1 i2 i3
          have hbox := unlin_inBox hsh.2 m
          have hlin : lin sr (unlin sr m) = m := lin_unlin (by omega)
          have hlt : lin sr (unlin sr m) + 1 < sr.prod := by rw [hlin]; omega
          have hn : nxt sr (unlin sr m) = unlin sr (m + 1) := by rw [nxt_eq_unlin hbox hlt, hlin]
          have hcarry := randnCarry_spec (us := ur) (sd := dr) hlu h2 hbox hlt u0
            (-(n0 : Int) - (u0 : Int) * (lin ur (unlin sr m) : Nat)) 0
          have hgt := lin_nxt_gt hbox hlt hle
          rw [hn] at hcarry hgt
          have hsrne : sr ≠ [] := by rintro rfl; simp at hm
          have hurne : ur ≠ [] := by
            rintro rfl; simp at hlu; exact hsrne (List.eq_nil_of_length_eq_zero hlu.symm)
          have hune : unlin sr m ≠ [] := by
            intro h; have := congrArg List.length h; simp at this; exact hsrne this
          cases dr with
          | nil => simp at h2; exact absurd (List.eq_nil_of_length_eq_zero h2.symm) hsrne
          | cons d1 dr' =>
            rw [lin_incHead hune hurne, dot_incHead' hune] at hcarry
            obtain ⟨t, ts, htt⟩ := List.exists_cons_of_ne_nil hune
            have hinc : incHead (unlin sr m) = (t + 1) :: ts := by rw [htt]; rfl
            rw [hinc] at hcarry
            have eA : (-(n0 : Int) - (u0 : Int) * (lin ur (unlin sr m) : Nat) + (u0 : Int) * ((lin ur (unlin sr m) + 1 : Nat) : Int))
                = (u0 : Int) - (n0 : Int) := by push_cast; ring
            have eB : (0 + ((dot (d1 :: dr') (unlin sr m) + d1 : Nat) : Int))
                = ((dot (d1 :: dr') (unlin sr m) + n0 * d0 : Nat) : Int) + ((d1 : Int) - (d0 : Int) * (n0 : Int)) := by
              push_cast; ring
            rw [eA, eB] at hcarry
            obtain ⟨g, hg⟩ := Nat.exists_eq_add_of_le hgt
            have hs2 : n0 ≤ u0 := hle0
            have hshift : (-(n0 : Int) - (u0 : Int) * (lin ur (unlin sr m) : Nat) + (u0 : Int) * (lin ur (unlin sr (m+1)) : Nat))
                = (((u0 - n0) + u0 * g : Nat) : Int) := by
              rw [hg]; push_cast [Nat.cast_sub hs2]; ring
            have hseed : rndJump (BitVec.ofInt 64 (-(n0 : Int) - (u0 : Int) * (lin ur (unlin sr m) : Nat) + (u0 : Int) * (lin ur (unlin sr (m+1)) : Nat)))
                (rndStep^[2 * (S0 + u0 * lin ur (unlin sr m) + n0)] seed) = rndStep^[2 * (S0 + u0 * lin ur (unlin sr (m+1)))] seed := by
              rw [hshift, BitVec.ofInt_natCast, rndJump_ofNat, ← Function.iterate_add_apply]
              congr 2
              rw [hg]
              obtain ⟨w, rfl⟩ := Nat.exists_eq_add_of_le hs2
              rw [Nat.add_sub_cancel_left]
              ring
            obtain ⟨b', e', k1, k2, k3⟩ := col _ (unlin_inBox hsh.2 (m+1)) b i4
            refine ⟨(⟨rndStep^[2 * (S0 + u0 * lin ur (unlin sr (m+1)) + n0)] seed, b',
              ((dot (d1 :: dr') (unlin sr (m+1)) + n0 * d0 : Nat) : Int)⟩, unlin sr (m+1)), ?_, rfl, rfl, rfl, k1, ?_, ?_⟩
            · simp only [randnBody, htt]
              rw [← htt, hcarry]
              simp only [M.bind_ok]
              rw [hseed, Int.zero_add, e', M.bind_ok]
            · intro q i hq hi
              by_cases hqm : q = m + 1
              · subst hqm; exact k2 i hi
              · rw [k3]
                · exact i5 q i (by omega) hi
                · intro i' hi' heq
                  have := hinj _ _ (by simp [hi, unlin_inBox hsh.2]) (by simp [hi', unlin_inBox hsh.2]) heq
                  simp only [List.cons.injEq] at this
                  have h' := congrArg (lin sr) this.2
                  rw [lin_unlin (by omega), lin_unlin (by omega)] at h'
                  omega
            · intro x hx
              rw [k3 x (fun i hi => hx (m+1) i le_rfl hi)]
              exact i6 x (fun q i hq hi => hx q i (by omega) hi))
      rw [hst, M.bind_ok]
      obtain ⟨-, -, -, i4, i5, i6⟩ := hI
      refine ⟨_, rfl, i4, ?_, ?_⟩
      · intro j hj
        cases j with
        | nil => simp at hj
        | cons i c =>
          simp only [InBox_cons] at hj
          have hlc := lin_lt hj.2
          have := i5 (lin sr c) i (by omega) hj.1
          rw [unlin_lin hj.2] at this
          rw [this]
          congr 2
          rw [lin_addIdx (by simp [h1, hj.2.length])]
          simp [hS0]; ring
      · intro x hx
        exact i6 x (fun q i _ hi => hx _ (by simp [hi, unlin_inBox hsh.2]))

end NNTile
