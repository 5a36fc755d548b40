import Verif.Lib.CudaGridB
/-! Termination of grids, also with `raise` loops. -/
namespace NNTile
variable {α : Type} [FP α]

/-- What remains after an access or a barrier; a `raise` loop that ends. -/
inductive Prog.SubR : Prog α → Prog α → Prop
  | rd (l : Loc) (k : α → Prog α) (v : α) : Prog.SubR (k v) (.rd l k)
  | wr (l : Loc) (v : α) (k : Prog α) : Prog.SubR k (.wr l v k)
  | atomicAdd (l : Loc) (v : α) (k : Prog α) : Prog.SubR k (.atomicAdd l v k)
  | sync (k : Prog α) : Prog.SubR k (.sync k)
  | raise (l : Loc) (v : α) (k : Prog α) : Prog.SubR k (.raise l v k)

/-- Identifies the two states of a `raise` loop. -/
def Prog.norm : Prog α → Prog α
  | .raiseWr l v k => .raise l v k
  | p => p

def Prog.Less (y x : Prog α) : Prop := ∃ q : Prog α, y = q.norm ∧ Prog.SubR q x

theorem Prog.less_wf : WellFounded (Prog.Less : Prog α → Prog α → Prop) := by
  have : ∀ p : Prog α, Acc Prog.Less p ∧ Acc Prog.Less p.norm := by
    intro p
    induction p with
    | rd l k ih => exact ⟨⟨_, by rintro _ ⟨q, rfl, h⟩; cases h; exact (ih _).2⟩, ⟨_, by rintro _ ⟨q, rfl, h⟩; cases h; exact (ih _).2⟩⟩
    | wr l v k ih => exact ⟨⟨_, by rintro _ ⟨q, rfl, h⟩; cases h; exact ih.2⟩, ⟨_, by rintro _ ⟨q, rfl, h⟩; cases h; exact ih.2⟩⟩
    | atomicAdd l v k ih => exact ⟨⟨_, by rintro _ ⟨q, rfl, h⟩; cases h; exact ih.2⟩, ⟨_, by rintro _ ⟨q, rfl, h⟩; cases h; exact ih.2⟩⟩
    | sync k ih => exact ⟨⟨_, by rintro _ ⟨q, rfl, h⟩; cases h; exact ih.2⟩, ⟨_, by rintro _ ⟨q, rfl, h⟩; cases h; exact ih.2⟩⟩
    | raise l v k ih => exact ⟨⟨_, by rintro _ ⟨q, rfl, h⟩; cases h; exact ih.2⟩, ⟨_, by rintro _ ⟨q, rfl, h⟩; cases h; exact ih.2⟩⟩
    | raiseWr l v k ih => exact ⟨⟨_, by rintro _ ⟨q, rfl, h⟩; cases h⟩, ⟨_, by rintro _ ⟨q, rfl, h⟩; cases h; exact ih.2⟩⟩
    | done => exact ⟨⟨_, by rintro _ ⟨q, rfl, h⟩; cases h⟩, ⟨_, by rintro _ ⟨q, rfl, h⟩; cases h⟩⟩
    | ub => exact ⟨⟨_, by rintro _ ⟨q, rfl, h⟩; cases h⟩, ⟨_, by rintro _ ⟨q, rfl, h⟩; cases h⟩⟩
  exact ⟨fun p => (this p).1⟩

/-- A step of a `raise` loop. -/
def Prog.Loops (l : Loc) (v : α) (k : Prog α) (m m1 : Mem α) (p q : Prog α) : Prop :=
  (p = .raise l v k ∧ q = .raiseWr l v k ∧ m1 = m ∧ ∃ x, m.rd l = .ok x ∧ FP.ltb x v = true) ∨ (p = .raiseWr l v k ∧ q = .raise l v k ∧ m.wr l v = .ok m1)

theorem Prog.step_less {p q : Prog α} {m m1 : Mem α} (h : p.step m = some (.ok (m1, q))) : Prog.Less q.norm p.norm ∨ ∃ l v k, Prog.Loops l v k m m1 p q := by
  cases p with
  | rd l k =>
    simp only [Prog.step, Option.some.injEq] at h
    obtain ⟨v, _, h⟩ := M.bind_eq_ok.1 h
    cases h
    exact Or.inl ⟨_, rfl, .rd l k v⟩
  | wr l v k =>
    simp only [Prog.step, Option.some.injEq] at h
    obtain ⟨_, _, h⟩ := M.bind_eq_ok.1 h
    cases h
    exact Or.inl ⟨_, rfl, .wr l v _⟩
  | atomicAdd l v k =>
    simp only [Prog.step, Option.some.injEq] at h
    obtain ⟨_, _, h⟩ := M.bind_eq_ok.1 h
    obtain ⟨_, _, h⟩ := M.bind_eq_ok.1 h
    cases h
    exact Or.inl ⟨_, rfl, .atomicAdd l v _⟩
  | raise l v k =>
    simp only [Prog.step, Option.some.injEq] at h
    obtain ⟨x, hx, h⟩ := M.bind_eq_ok.1 h
    cases hlt : FP.ltb x v with
    | true =>
      simp only [hlt, if_true] at h
      cases h
      exact Or.inr ⟨l, v, k, Or.inl ⟨rfl, rfl, rfl, x, hx, hlt⟩⟩
    | false =>
      simp only [hlt] at h
      cases h
      exact Or.inl ⟨k, rfl, .raise l v k⟩
  | raiseWr l v k =>
    simp only [Prog.step, Option.some.injEq] at h
    obtain ⟨m', hx, h⟩ := M.bind_eq_ok.1 h
    cases h
    exact Or.inr ⟨l, v, k, Or.inr ⟨rfl, rfl, hx⟩⟩
  | _ => simp [Prog.step] at h

/-- A sequence that does not increase along a well-founded relation is constant at the end. -/
theorem eventually_const {β : Type} {r : β → β → Prop} (hr : WellFounded r) (a : Nat → β) (h : ∀ n, a (n + 1) = a n ∨ r (a (n + 1)) (a n)) : ∃ N, ∀ n, N ≤ n → a n = a N := by
  obtain ⟨_, ⟨N, rfl⟩, hN⟩ := hr.transGen.has_min (Set.range a) ⟨a 0, 0, rfl⟩
  refine ⟨N, fun n hn => ?_⟩
  have : a n = a N ∨ Relation.TransGen r (a n) (a N) := by
    induction n, hn using Nat.le_induction with
    | base => exact Or.inl rfl
    | succ n hn ih =>
      rcases h n with e | e
      · rw [e]; exact ih
      · rcases ih with ih | ih
        · rw [ih] at e; exact Or.inr (.single e)
        · exact Or.inr (.trans (.single e) ih)
  exact this.resolve_right (hN (a n) ⟨n, rfl⟩)

theorem eventually_const_list {ι β : Type} {r : β → β → Prop} (hr : WellFounded r) (a : Nat → ι → β) (L : List ι) (h : ∀ i ∈ L, ∀ n, a (n + 1) i = a n i ∨ r (a (n + 1) i) (a n i)) :
    ∃ N, ∀ i ∈ L, ∀ n, N ≤ n → a n i = a N i := by
  induction L with
  | nil => exact ⟨0, by simp⟩
  | cons i L ih =>
    obtain ⟨N, hN⟩ := ih fun j hj => h j (by simp [hj])
    obtain ⟨N', hN'⟩ := eventually_const hr (fun n => a n i) (h i (by simp))
    refine ⟨max N N', fun j hj n hn => ?_⟩
    rcases List.mem_cons.1 hj with rfl | hj
    · rw [hN' n (le_trans (le_max_right _ _) hn), hN' _ (le_max_right _ _)]
    · rw [hN j hj n (le_trans (le_max_left _ _) hn), hN j hj _ (le_max_left _ _)]

theorem exists_min_list {ι : Type} (val : ι → α) (h : ∀ x y z : α, FP.ltb x y = true → FP.ltb y z = true → FP.ltb x z = true) (h0 : ∀ x : α, FP.ltb x x = false) :
    ∀ (S : List ι), S ≠ [] → ∃ t ∈ S, ∀ u ∈ S, FP.ltb (val u) (val t) = false := by
  intro S
  induction S with
  | nil => intro h; exact (h rfl).elim
  | cons a S ih =>
    intro _
    by_cases hS : S = []
    · subst hS
      exact ⟨a, by simp, by simp [h0]⟩
    obtain ⟨t, ht, hmin⟩ := ih hS
    cases hat : FP.ltb (val a) (val t) with
    | true =>
      refine ⟨a, by simp, fun u hu => ?_⟩
      rcases List.mem_cons.1 hu with rfl | hu
      · exact h0 _
      · cases hua : FP.ltb (val u) (val a) with
        | false => rfl
        | true => rw [← hmin u hu, h _ _ _ hua hat]
    | false =>
      refine ⟨t, by simp [ht], fun u hu => ?_⟩
      rcases List.mem_cons.1 hu with rfl | hu
      · exact hat
      · exact hmin u hu

/-- `raise` loops do not run forever. -/
theorem loops_terminate (h : ∀ x y z : α, FP.ltb x y = true → FP.ltb y z = true → FP.ltb x z = true) (h0 : ∀ x : α, FP.ltb x x = false) (loc : Tid → Loc) (val : Tid → α)
    (k : Tid → Prog α) : ∀ (n : Nat) (S : List Tid), S.length = n → ∀ f : Nat → GState α,
      (∀ i, ∃ t ∈ S, ∃ m1 q, Prog.Loops (loc t) (val t) (k t) (f i).mem m1 ((f i).prog t) q ∧ f (i + 1) = ⟨m1, Function.update (f i).prog t q⟩) → False := by
  intro n
  induction n with
  | zero =>
    intro S hS f hf
    obtain ⟨t, ht, _⟩ := hf 0
    rw [List.length_eq_zero_iff.1 hS] at ht
    cases ht
  | succ n ih =>
    intro S hS f hf
    have hne : S ≠ [] := by rintro rfl; simp at hS
    obtain ⟨t, ht, hmin⟩ := exists_min_list val h h0 S hne
    classical
    by_cases hfin : ∃ N, ∀ i, N ≤ i → ∃ u ∈ S.erase t, ∃ m1 q, Prog.Loops (loc u) (val u) (k u) (f i).mem m1 ((f i).prog u) q ∧ f (i + 1) = ⟨m1, Function.update (f i).prog u q⟩
    · obtain ⟨N, hN⟩ := hfin
      refine ih (S.erase t) (by rw [List.length_erase_of_mem ht, hS]; rfl) (fun i => f (N + i)) fun i => ?_
      exact hN (N + i) (Nat.le_add_right _ _)
    push Not at hfin
    -- thread `t` makes steps again and again
    have often : ∀ N, ∃ i, N ≤ i ∧ ∃ m1 q, Prog.Loops (loc t) (val t) (k t) (f i).mem m1 ((f i).prog t) q ∧ f (i + 1) = ⟨m1, Function.update (f i).prog t q⟩ := by
      intro N
      obtain ⟨i, hi, hn⟩ := hfin N
      obtain ⟨u, hu, m1, q, hl, he⟩ := hf i
      by_cases e : u = t
      · subst e; exact ⟨i, hi, m1, q, hl, he⟩
      · exact (hn u ((List.mem_erase_of_ne e).2 hu) m1 q hl he).elim
    -- `t` writes at some time
    have hread : ∀ i, (f i).prog t = .raise (loc t) (val t) (k t) → (∃ x, (f i).mem.rd (loc t) = .ok x ∧ FP.ltb x (val t) = false) → False := by
      intro i hp hx
      have stay : ∀ j, i ≤ j → (f j).prog t = .raise (loc t) (val t) (k t) ∧ ∃ x, (f j).mem.rd (loc t) = .ok x ∧ FP.ltb x (val t) = false := by
        intro j hj
        induction j, hj using Nat.le_induction with
        | base => exact ⟨hp, hx⟩
        | succ j _ ihj =>
          obtain ⟨hp, x, hx, hlt⟩ := ihj
          obtain ⟨u, hu, m1, q, hl, he⟩ := hf j
          have hut : u ≠ t := by
            rintro rfl
            rcases hl with ⟨_, _, _, y, hy, hlt'⟩ | ⟨hp', _⟩
            · rw [hx] at hy; cases hy; rw [hlt] at hlt'; cases hlt'
            · rw [hp] at hp'; cases hp'
          rw [he]
          refine ⟨by dsimp only; rw [Function.update_of_ne (Ne.symm hut)]; exact hp, ?_⟩
          rcases hl with ⟨_, _, rfl, _⟩ | ⟨_, _, hw⟩
          · exact ⟨x, hx, hlt⟩
          · by_cases e : loc t = loc u
            · rw [e]; exact ⟨val u, Mem.rd_wr_eq hw, hmin u hu⟩
            · exact ⟨x, by rw [Mem.rd_wr_ne hw e, hx], hlt⟩
      obtain ⟨j, hj, m1, q, hl, _⟩ := often i
      obtain ⟨hp, x, hx, hlt⟩ := stay j hj
      rcases hl with ⟨_, _, _, y, hy, hlt'⟩ | ⟨hp', _⟩
      · rw [hx] at hy; cases hy; rw [hlt] at hlt'; cases hlt'
      · rw [hp] at hp'; cases hp'
    have hwrite : ∀ i, (f i).prog t = .raiseWr (loc t) (val t) (k t) → False := by
      intro i hp
      have stay : ∀ j, i ≤ j → (f j).prog t = .raiseWr (loc t) (val t) (k t) := by
        intro j hj
        induction j, hj using Nat.le_induction with
        | base => exact hp
        | succ j _ ihj =>
          obtain ⟨u, hu, m1, q, hl, he⟩ := hf j
          by_cases hut : u = t
          · subst hut
            exfalso
            rcases hl with ⟨hp', _⟩ | ⟨_, rfl, hw⟩
            · rw [ihj] at hp'; cases hp'
            · refine hread (j + 1) ?_ ?_
              · rw [he]; simp
              · rw [he]; exact ⟨val u, Mem.rd_wr_eq hw, h0 _⟩
          · rw [he]
            dsimp only
            rw [Function.update_of_ne (Ne.symm hut)]
            exact ihj
      obtain ⟨j, hj, m1, q, hl, he⟩ := often i
      have hp' := stay (j + 1) (by omega)
      rcases hl with ⟨hp1, _⟩ | ⟨_, rfl, _⟩
      · rw [stay j hj] at hp1; cases hp1
      · rw [he] at hp'; simp at hp'
    obtain ⟨i, _, m1, q, hl, he⟩ := often 0
    rcases hl with ⟨_, rfl, _⟩ | ⟨hp, _⟩
    · exact hwrite (i + 1) (by rw [he]; simp)
    · exact hwrite i hp

/-- Grids terminate. -/
theorem GStep.terminates_raise (L : List Tid) (f : Nat → GState α) (h1 : ∀ n t, t ∉ L → (f n).prog t = .done) (hs : ∀ n, GStep (f n) (f (n + 1)))
    (hord : ∀ n t, ¬ ((f n).prog t).Plain → (∀ a : α, FP.ltb a a = false) ∧ ∀ x y z : α, FP.ltb x y = true → FP.ltb y z = true → FP.ltb x z = true) : False := by
  have dec : ∀ t, ∀ n, ((f (n + 1)).prog t).norm = ((f n).prog t).norm ∨ Prog.Less ((f (n + 1)).prog t).norm ((f n).prog t).norm := by
    intro t n
    have h := hs n
    revert h
    generalize f (n+1) = s'
    intro h
    cases h with
    | thread u h =>
      by_cases e : t = u
      · subst e
        simp only [Function.update_self]
        rcases Prog.step_less h with h | ⟨l, v, k, ⟨hp, rfl, _⟩ | ⟨hp, rfl, _⟩⟩
        · exact Or.inr h
        · rw [hp]; exact Or.inl rfl
        · rw [hp]; exact Or.inl rfl
      · left
        dsimp only
        rw [Function.update_of_ne e]
    | barrier b h h' =>
      simp only
      split
      · next e =>
        rcases h t e with h | h
        · rw [h]; exact Or.inl rfl
        · revert h
          generalize (f n).prog t = p
          intro h
          cases p with
          | sync k => exact Or.inr ⟨k, rfl, .sync k⟩
          | _ => exact h.elim
      · exact Or.inl rfl
  obtain ⟨N, hN⟩ := eventually_const_list Prog.less_wf (fun n t => ((f n).prog t).norm) L fun t _ => dec t
  have irr : ∀ p : Prog α, ¬ Prog.Less p p := fun p h => Prog.less_wf.irrefl.irrefl p h
  have hloop : ∀ i, ∃ t ∈ L, ∃ l v k m1 q, Prog.Loops l v k (f (N + i)).mem m1 ((f (N + i)).prog t) q ∧ f (N + i + 1) = ⟨m1, Function.update (f (N + i)).prog t q⟩ := by
    intro i
    have hd : ∀ t ∈ L, ((f (N + i + 1)).prog t).norm = ((f (N + i)).prog t).norm := fun t ht => by
      rw [hN t ht (N + i + 1) (by omega), hN t ht (N + i) (by omega)]
    have h := hs (N + i)
    have ho := h1 (N + i)
    revert h hd
    generalize f (N + i + 1) = s'
    intro hd h
    cases h with
    | thread u h =>
      have hu : u ∈ L := by
        by_contra hu
        rw [ho u hu] at h
        cases h
      rcases Prog.step_less h with h' | ⟨l, v, k, hl⟩
      · have e := hd u hu
        simp only [Function.update_self] at e
        rw [e] at h'
        exact (irr _ h').elim
      · exact ⟨u, hu, l, v, k, _, _, hl, rfl⟩
    | barrier b h h' =>
      exfalso
      obtain ⟨t, hb, hw⟩ := h'
      have ht : t ∈ L := by
        by_contra ht
        rw [ho t ht] at hw
        exact hw
      have e := hd t ht
      simp only [if_pos hb] at e
      revert hw e
      generalize (f (N + i)).prog t = p
      intro hw e
      cases p with
      | sync k =>
        have : Prog.Less k.norm (Prog.sync k : Prog α).norm := ⟨k, rfl, .sync k⟩
        simp only [Prog.resume] at e
        rw [e] at this
        exact irr _ this
      | _ => exact hw.elim
  have hplain : ∃ n t, ¬ ((f n).prog t).Plain := by
    obtain ⟨t, ht, l, v, k, m1, q, hl, he⟩ := hloop 0
    refine ⟨N + 0, t, ?_⟩
    rcases hl with ⟨hp, _⟩ | ⟨hp, _⟩ <;> rw [hp] <;> exact fun h => h
  obtain ⟨n, t, hp⟩ := hplain
  obtain ⟨h0, htr⟩ := hord n t hp
  let lk : Tid → Loc × α × Prog α := fun t => match ((f N).prog t).norm with
    | .raise l v k => (l, v, k)
    | p => ((.glob 0, 0), FP.lit 0, p)
  refine loops_terminate htr h0 (fun t => (lk t).1) (fun t => (lk t).2.1) (fun t => (lk t).2.2) L.length L rfl (fun i => f (N + i)) fun i => ?_
  obtain ⟨t, ht, l, v, k, m1, q, hl, he⟩ := hloop i
  refine ⟨t, ht, m1, q, ?_, he⟩
  have e : ((f N).prog t).norm = .raise l v k := by
    have := hN t ht (N + i) (by omega)
    rw [← this]
    rcases hl with ⟨hp, _⟩ | ⟨hp, _⟩ <;> rw [hp] <;> rfl
  have e1 : lk t = (l, v, k) := by
    simp only [lk]
    rw [e]
  simp only [e1]
  exact hl

end NNTile
