import Verif.Model.Fp16Copy
import Verif.Lib.ScatterGather
import Verif.Lib.Contract
/-!
# `subcopy` needs both buffers to contain all elements
-/
namespace NNTile
variable {α : Type}

/-- Everything that can be read from `a` can be read from `b`. -/
def Buf.Extends (a b : Buf α) : Prop := ∀ i x, a.rd i = .ok x → b.rd i = .ok x
/-- `b` is `a` followed by more memory with undefined contents. -/
def Buf.Longer (a b : Buf α) : Prop := a.size ≤ b.size ∧ (∀ i, i < a.size → b.data i = a.data i) ∧ ∀ i, a.size ≤ i → b.data i = none

theorem forN_sim {σ : Type} {R : σ → σ → Prop} {f g : Nat → σ → M σ} (h : ∀ i s s' t, R s s' → f i s = .ok t → ∃ t', g i s' = .ok t' ∧ R t t') {n : Nat} {s s' t : σ}
    (h0 : R s s') (e : forN n f s = .ok t) : ∃ t', forN n g s' = .ok t' ∧ R t t' := by
  induction n generalizing t with
  | zero => obtain rfl := Except.ok.inj e; exact ⟨s', rfl, h0⟩
  | succ n ih =>
    rw [forN_succ] at e
    obtain ⟨u, e1, e2⟩ := M.bind_eq_ok.1 e
    obtain ⟨u', e1', r⟩ := ih e1
    obtain ⟨t', e2', r'⟩ := h n u u' t r e2
    exact ⟨t', by rw [forN_succ, e1', M.bind_ok, e2'], r'⟩

theorem Buf.Extends.rdI {a b : Buf α} (h : a.Extends b) {p : Int} {x : α} (e : a.rdI p = .ok x) : b.rdI p = .ok x := by
  unfold Buf.rdI at *
  split_ifs at * with hp
  exact h _ _ e

theorem Buf.Longer.wrI {a b a' : Buf α} (h : a.Longer b) {p : Int} {x : α} (e : a.wrI p x = .ok a') : ∃ b', b.wrI p x = .ok b' ∧ a'.Longer b' ∧ a'.size = a.size := by
  unfold Buf.wrI at *
  split_ifs at * with hp
  unfold Buf.wr at *
  obtain ⟨h1, h2, h3⟩ := h
  split_ifs at e with hq
  obtain rfl := Except.ok.inj e
  rw [if_pos (by omega)]
  refine ⟨_, rfl, ⟨h1, fun i hi => ?_, fun i hi => ?_⟩, rfl⟩
  · simp only; rw [h2 i hi]
  · simp only; rw [if_neg (fun e => by subst e; exact absurd hi (by simpa using hq)), h3 i hi]

theorem subcopyKernel_sim {sst sd sh dst dd : List Nat} {src src' buf buf' out : Buf α} (hs : src.Extends src') (hb : buf.Longer buf')
    (e : subcopyKernel sst sd sh src dst dd buf = .ok out) : ∃ out', subcopyKernel sst sd sh src' dst dd buf' = .ok out' ∧ out.Longer out' ∧ out.size = buf.size := by
  cases sst with
  | nil => simp [subcopyKernel] at e
  | cons s0 ss => cases sd with
    | nil => simp [subcopyKernel] at e
    | cons d0 sd => cases dst with
      | nil => simp [subcopyKernel] at e
      | cons t0 ts => cases dd with
        | nil => simp [subcopyKernel] at e
        | cons c0 td =>
          simp only [subcopyKernel] at *
          obtain ⟨v, e1, e⟩ := M.bind_eq_ok.1 e
          obtain ⟨b1, e2, e⟩ := M.bind_eq_ok.1 e
          obtain ⟨st, e3, e⟩ := M.bind_eq_ok.1 e
          obtain rfl := Except.ok.inj e
          obtain ⟨b1', e2', l1, z1⟩ := hb.wrI e2
          have := forN_sim (R := fun (x y : SubcopySt α) => x.srcIdx = y.srcIdx ∧ x.dstIdx = y.dstIdx ∧ x.srcOff = y.srcOff ∧ x.dstOff = y.dstOff ∧ x.dst.Longer y.dst ∧ x.dst.size = buf.size)
            (f := fun _ st => subcopyBody (s0 :: ss) (d0 :: sd) sh src (t0 :: ts) (c0 :: td) st) (g := fun _ st => subcopyBody (s0 :: ss) (d0 :: sd) sh src' (t0 :: ts) (c0 :: td) st)
            (s := ⟨s0 :: ss, t0 :: ts, offsetLoop ss sd s0 + 1, offsetLoop ts td t0 + 1, b1⟩) (s' := ⟨s0 :: ss, t0 :: ts, offsetLoop ss sd s0 + 1, offsetLoop ts td t0 + 1, b1'⟩) ?_ ⟨rfl, rfl, rfl, rfl, l1, z1⟩ e3
          · obtain ⟨t', e4, -, -, -, -, l, z⟩ := this
            refine ⟨t'.dst, ?_, l, z⟩
            rw [hs.rdI e1, M.bind_ok, e2', M.bind_ok, e4, M.bind_ok]
          · rintro i ⟨a1, a2, a3, a4, a5⟩ ⟨_, _, _, _, y5⟩ t ⟨rfl, rfl, rfl, rfl, l, z⟩ h
            simp only [subcopyBody] at *
            obtain ⟨r, q1, h⟩ := M.bind_eq_ok.1 h
            obtain ⟨q, q2, h⟩ := M.bind_eq_ok.1 h
            obtain ⟨w, q3, h⟩ := M.bind_eq_ok.1 h
            obtain ⟨d, q4, h⟩ := M.bind_eq_ok.1 h
            obtain rfl := Except.ok.inj h
            obtain ⟨d', q4', l', z'⟩ := l.wrI q4
            exact ⟨⟨r.1, q.1, r.2 + 1, q.2 + 1, d'⟩, by rw [q1, M.bind_ok, q2, M.bind_ok, hs.rdI q3, M.bind_ok, q4', M.bind_ok], rfl, rfl, rfl, rfl, l', z'.trans z⟩

theorem nothrow_bind {β γ : Type} {x : M β} {f : β → M γ} (h : ¬ Throws x) (hf : ∀ a, ¬ Throws (f a)) : ¬ Throws (x >>= f) := by
  rintro ⟨m, e⟩
  rcases x with (_ | _) | r
  · exact h ⟨_, rfl⟩
  · cases e
  · exact hf r ⟨m, e⟩

theorem ok_nothrow {β : Type} (x : β) : ¬ Throws (.ok x : M β) := by rintro ⟨m, e⟩; cases e
theorem ub_nothrow {β : Type} (m : String) : ¬ Throws (.error (.ub m) : M β) := by rintro ⟨m, e⟩; cases e

/-- The kernel never throws. -/
theorem subcopyCarry_nothrow (a b c d : List Nat) (e : Int) : ¬ Throws (subcopyCarry a b c d e) := by
  fun_induction subcopyCarry a b c d e with
  | case1 => rename_i ih; exact nothrow_bind ih fun _ => ok_nothrow _
  | _ => rintro ⟨m, h'⟩; cases h'

theorem nothrow_forN {σ : Type} {f : Nat → σ → M σ} (h : ∀ i s, ¬ Throws (f i s)) (n : Nat) (s : σ) : ¬ Throws (forN n f s) := by
  induction n with
  | zero => rintro ⟨m, e⟩; cases e
  | succ n ih => rw [forN_succ]; exact nothrow_bind ih (h n)

theorem rdI_nothrow (b : Buf α) (p : Int) : ¬ Throws (b.rdI p) := by
  rintro ⟨m, e⟩
  unfold Buf.rdI Buf.rd at e
  split_ifs at e
  · cases e
  · split at e <;> cases e
  · cases e

theorem wrI_nothrow (b : Buf α) (p : Int) (x : α) : ¬ Throws (b.wrI p x) := by
  rintro ⟨m, e⟩
  unfold Buf.wrI Buf.wr at e
  split_ifs at e <;> cases e

theorem subcopyKernel_nothrow (sst sd sh dst dd : List Nat) (src buf : Buf α) : ¬ Throws (subcopyKernel sst sd sh src dst dd buf) := by
  unfold subcopyKernel
  split
  · refine nothrow_bind (rdI_nothrow _ _) fun _ => nothrow_bind (wrI_nothrow _ _ _) fun _ => nothrow_bind (nothrow_forN (fun _ _ => ?_) _ _) fun _ => ok_nothrow _
    exact nothrow_bind (subcopyCarry_nothrow _ _ _ _ _) fun _ => nothrow_bind (subcopyCarry_nothrow _ _ _ _ _) fun _ => nothrow_bind (rdI_nothrow _ _) fun _ =>
      nothrow_bind (wrI_nothrow _ _ _) fun _ => ok_nothrow _
  · exact ub_nothrow _

theorem ub_of_nothrow {β : Type} {x : M β} (h : ¬ Throws x) (h' : ∀ a, x ≠ .ok a) : IsUB x := by
  rcases x with (_ | _) | r
  · exact absurd ⟨_, rfl⟩ h
  · exact ⟨_, rfl⟩
  · exact absurd rfl (h' r)

/-- If the kernel succeeds, all elements of the box were inside of both buffers. -/
theorem subcopy_inside [Nontrivial α] {sst sd sh dst dd : List Nat} {src buf out : Buf α} (hne : sh ≠ []) (hsh : Pos sh) (h1 : sst.length = sh.length)
    (h2 : sd.length = sh.length) (h3 : dst.length = sh.length) (h4 : dd.length = sh.length) (hsd : sd.head? = some 1) (hdd : dd.head? = some 1)
    (hinj : ∀ i j, InBox sh i → InBox sh j → dot dd (addIdx dst i) = dot dd (addIdx dst j) → i = j) (e : subcopyKernel sst sd sh src dst dd buf = .ok out) {j : List Nat} (hj : InBox sh j) :
    dot sd (addIdx sst j) < src.size ∧ dot dd (addIdx dst j) < buf.size := by
  obtain ⟨N, hN⟩ : ∃ N, ∀ j, InBox sh j → dot sd (addIdx sst j) < N ∧ dot dd (addIdx dst j) < N := by
    refine ⟨(box sh).sup (fun j => dot sd (addIdx sst j)) + (box sh).sup (fun j => dot dd (addIdx dst j)) + 1, fun j hj => ?_⟩
    have a := Finset.le_sup (f := fun j => dot sd (addIdx sst j)) (mem_box.2 hj)
    have b := Finset.le_sup (f := fun j => dot dd (addIdx dst j)) (mem_box.2 hj)
    omega
  let S : α → Buf α := fun v => ⟨max src.size N, fun i => some (if i < src.size then (src.data i).getD v else v)⟩
  let D : Buf α := ⟨max buf.size N, fun i => if i < buf.size then buf.data i else none⟩
  have hS : ∀ v, src.Extends (S v) := by
    intro v i x h
    unfold Buf.rd at *
    split_ifs at h with hi
    cases hd : src.data i with
    | none => simp [hd] at h
    | some y =>
      rw [hd] at h
      obtain rfl := Except.ok.inj h
      have : i < (S v).size := lt_of_lt_of_le hi (le_max_left _ _)
      simp [this, S, hi, hd]
  have hD : buf.Longer D := ⟨le_max_left _ _, fun i hi => by simp [D, hi], fun i hi => by simp [D, Nat.not_lt.2 hi]⟩
  have key : ∀ v, ∃ o, out.Longer o ∧ out.size = buf.size ∧ ∀ j, InBox sh j → o.data (dot dd (addIdx dst j)) = (S v).data (dot sd (addIdx sst j)) := by
    intro v
    obtain ⟨o, eo, l, z⟩ := subcopyKernel_sim (hS v) hD e
    obtain ⟨o', eo', -, hv, -⟩ := subcopy_spec (src := S v) (buf := D) hne hsh h1 h2 h3 h4 hsd hdd
      (fun j hj => ⟨lt_of_lt_of_le (hN j hj).1 (le_max_right _ _), _, rfl⟩) (fun j hj => lt_of_lt_of_le (hN j hj).2 (le_max_right _ _)) hinj
    obtain rfl := Except.ok.inj (eo.symm.trans eo')
    exact ⟨o, l, z, hv⟩
  obtain ⟨v, w, hvw⟩ := exists_pair_ne α
  obtain ⟨o, l, z, hv⟩ := key v
  obtain ⟨o', l', -, hw⟩ := key w
  have hd : dot dd (addIdx dst j) < buf.size := by
    by_contra h
    have := hv j hj
    rw [l.2.2 _ (by omega)] at this
    cases this
  refine ⟨?_, hd⟩
  by_contra h
  have a := hv j hj
  have b := hw j hj
  rw [l.2.1 _ (by omega)] at a
  rw [l'.2.1 _ (by omega)] at b
  have := a.symm.trans b
  simp only [S, if_neg h] at this
  exact hvw (Option.some.inj this)

end NNTile
