import Verif.Lib.FlashBwdRef
/-! `flash_softmax_gemm_backward` does the same as the separate operations: the fused operation. -/
namespace NNTile
variable {α : Type}

namespace FlashBwd
variable {F : FlashBwd} {z t : AttnDims} [FP α]

/-- The handle belongs to a tile of the tensor. -/
def Of (k : Handle) (T : Tensor) : Prop := k.1 = T.id ∧ k.2 < T.ntiles

omit [FP α] in
theorem of_hd {T : Tensor} {l : List Nat} (hl : InBox T.grid l) : Of (hd T l) T := ⟨rfl, lin_lt hl⟩

omit [FP α] in
theorem of_heads (h : F.Fits z t) {T : Tensor} (hT : T ∈ [F.Q, F.dQ, F.K, F.dK, F.V, F.dV, F.dA]) {k : Handle} (hk : Of k T) :
    ∃ i n m, i < z.S / t.S ∧ n < z.B / t.B ∧ m < z.H / t.H ∧ k = hd T [0, i, n, m] := by
  have hin := T.tindex_inBox k.2
  have e := Tensor.lin_tindex hk.2
  generalize T.tindex k.2 = l at hin e
  rw [(h.heads T hT).grid h.tiles h.pos] at hin
  obtain ⟨x, i, n, m, hx, hi, hn, hm, rfl⟩ := mem_box4 (mem_box.2 hin)
  obtain rfl : x = 0 := by omega
  exact ⟨i, n, m, hi, hn, hm, Prod.ext hk.1 e.symm⟩

omit [FP α] in
theorem of_sps (h : F.Fits z t) {k : Handle} (hk : Of k F.sps) :
    ∃ i n m, i < z.S / t.S ∧ n < z.B / t.B ∧ m < z.H / t.H ∧ k = hd F.sps [i, n, m] := by
  have hin := F.sps.tindex_inBox k.2
  have e := Tensor.lin_tindex hk.2
  generalize F.sps.tindex k.2 = l at hin e
  rw [h.sps.grid h.tiles h.pos] at hin
  obtain ⟨i, n, m, hi, hn, hm, rfl⟩ := mem_box3 (mem_box.2 hin)
  exact ⟨i, n, m, hi, hn, hm, Prod.ext hk.1 e.symm⟩

omit [FP α] in
theorem of_ne (h : F.Fits z t) {x y : Ix} (hxy : x ≠ y) {k : Handle} (hk : Of k (F.tens x)) : ¬ Of k (F.tens y) := fun hk' => h.inj hxy (hk.1.symm.trans hk'.1)

open Classical in
/-- The memory after the first loop. -/
noncomputable def mid (F : FlashBwd) (s s' : Store α) : Store α := fun k =>
  if Of k F.dV ∨ Of k F.sps then s' k
  else if Of k F.dQ ∨ Of k F.dK then (match foldBuf s [submitClear k] (s k) with
    | .ok b => b
    | .error _ => s k)
  else s k

open Classical in
/-- The memory after the second loop. -/
noncomputable def fin (F : FlashBwd) (s s' : Store α) : Store α := fun k =>
  if Of k F.dV ∨ Of k F.sps ∨ Of k F.dQ ∨ Of k F.dK then s' k else s k

variable (asBool : α → Bool) (ninf : α) (h : F.Fits z t)
include h

theorem run1 {s s' : Store α} (ht : Tiled F z t asBool ninf s s') : runAll1 (list1 F z t asBool ninf) s = .ok (mid F s s') := by
  refine runAll1_ok ?_ ?_
  · intro u hu k hk v hv e
    obtain ⟨x, hx, ek⟩ := list1_reads asBool ninf hu hk
    have hne : ∀ x ∈ [Ix.K, .Q, .mask, .mse, .dA, .V], x ≠ .dQ ∧ x ≠ .dK ∧ x ≠ .dV ∧ x ≠ .sps := by decide
    obtain ⟨q1, q2, q3, q4⟩ := hne x hx
    obtain ⟨T, hT, l, -, e'⟩ | ⟨l, -, e'⟩ := list1_out asBool ninf h hv
    · simp only [List.mem_cons, List.not_mem_nil, or_false] at hT
      have : k.1 = T.id := by rw [← e, e']; rfl
      obtain rfl | rfl | rfl := hT
      · exact h.inj q1 (ek.symm.trans this)
      · exact h.inj q2 (ek.symm.trans this)
      · exact h.inj q3 (ek.symm.trans this)
    · have : k.1 = F.sps.id := by rw [← e, e']; rfl
      exact h.inj q4 (ek.symm.trans this)
  · intro k
    by_cases k1 : Of k F.dV
    · obtain ⟨i, n, m, hi, hn, hm, rfl⟩ := of_heads h (by simp) k1
      rw [filter1_dV asBool ninf h hi hn hm, ht.dV i n m hi hn hm, mid, if_pos (.inl k1)]
    by_cases k2 : Of k F.sps
    · obtain ⟨i, n, m, hi, hn, hm, rfl⟩ := of_sps h k2
      rw [filter1_sps asBool ninf h hi hn hm, ht.sps i n m hi hn hm, mid, if_pos (.inr k2)]
    have n12 : ¬ (Of k F.dV ∨ Of k F.sps) := by simp [k1, k2]
    have in1 : ∀ x ∈ Ix.inputs, ∀ l, (fin F s s') ((F.tens x).id, l) = s ((F.tens x).id, l) := by
      intro x hx l
      have hne : ∀ x ∈ Ix.inputs, x ≠ .dQ ∧ x ≠ .dK ∧ x ≠ .dV ∧ x ≠ .sps := by decide
      obtain ⟨q1, q2, q3, q4⟩ := hne x hx
      rw [fin, if_neg]
      rintro (w | w | w | w)
      · exact h.inj q3 w.1
      · exact h.inj q4 w.1
      · exact h.inj q1 w.1
      · exact h.inj q2 w.1
    have in2 : ∀ l, InBox F.sps.grid l → fin F s s' (hd F.sps l) = s' (hd F.sps l) := fun l hl => by
      rw [fin, if_pos (.inr (.inl (of_hd hl)))]
    by_cases k3 : Of k F.dQ
    · obtain ⟨i, n, m, hi, hn, hm, rfl⟩ := of_heads h (by simp) k3
      obtain ⟨b, hb, -⟩ := ht.dQ _ in1 in2 i n m hi hn hm
      rw [filter1_dQ asBool ninf h hi hn hm, mid, if_neg n12, if_pos (.inl k3), hb]
    by_cases k4 : Of k F.dK
    · obtain ⟨i, n, m, hi, hn, hm, rfl⟩ := of_heads h (by simp) k4
      obtain ⟨b, hb, -⟩ := ht.dK _ in1 in2 i n m hi hn hm
      rw [filter1_dK asBool ninf h hi hn hm, mid, if_neg n12, if_pos (.inr k4), hb]
    rw [mid, if_neg n12, if_neg (by simp [k3, k4]), List.filter_eq_nil_iff.2]
    · rfl
    · intro u hu e
      rw [decide_eq_true_eq] at e
      subst e
      obtain ⟨T, hT, l, hl, e'⟩ | ⟨l, hl, e'⟩ := list1_out asBool ninf h hu
      · simp only [List.mem_cons, List.not_mem_nil, or_false] at hT
        have := of_hd hl
        rw [← e'] at this
        obtain rfl | rfl | rfl := hT
        · exact k3 this
        · exact k4 this
        · exact k1 this
      · have := of_hd hl
        rw [← e'] at this
        exact k2 this

theorem run2 {s s' : Store α} (ht : Tiled F z t asBool ninf s s') : runAll1 (list2 F z t asBool ninf) (mid F s s') = .ok (fin F s s') := by
  have inE : ∀ x ∈ Ix.inputs, x ≠ .dQ ∧ x ≠ .dK ∧ x ≠ .dV ∧ x ≠ .sps := by decide
  have in1 : ∀ x ∈ Ix.inputs, ∀ l, (mid F s s') ((F.tens x).id, l) = s ((F.tens x).id, l) := by
    intro x hx l
    obtain ⟨q1, q2, q3, q4⟩ := inE x hx
    rw [mid, if_neg, if_neg]
    · rintro (w | w)
      · exact h.inj q1 w.1
      · exact h.inj q2 w.1
    · rintro (w | w)
      · exact h.inj q3 w.1
      · exact h.inj q4 w.1
  have in2 : ∀ l, InBox F.sps.grid l → mid F s s' (hd F.sps l) = s' (hd F.sps l) := fun l hl => by
    rw [mid, if_pos (.inr (of_hd hl))]
  refine runAll1_ok ?_ ?_
  · intro u hu k hk v hv e
    obtain ⟨x, hx, ek⟩ := list2_reads asBool ninf hu hk
    have hne : ∀ x ∈ [Ix.K, .Q, .mask, .mse, .dA, .V, .sps], x ≠ .dQ ∧ x ≠ .dK := by decide
    obtain ⟨q1, q2⟩ := hne x hx
    obtain ⟨T, hT, l, -, e'⟩ := list2_out asBool ninf h hv
    simp only [List.mem_cons, List.not_mem_nil, or_false] at hT
    have : k.1 = T.id := by rw [← e, e']; rfl
    obtain rfl | rfl := hT
    · exact h.inj q1 (ek.symm.trans this)
    · exact h.inj q2 (ek.symm.trans this)
  · intro k
    by_cases k3 : Of k F.dQ
    · have n1 : ¬ Of k F.dV := of_ne (x := .dQ) (y := .dV) h (by decide) k3
      have n2 : ¬ Of k F.sps := of_ne (x := .dQ) (y := .sps) h (by decide) k3
      have e1 : fin F s s' k = s' k := by rw [fin, if_pos (.inr (.inr (.inl k3)))]
      obtain ⟨i, n, m, hi, hn, hm, rfl⟩ := of_heads h (by simp) k3
      obtain ⟨b, hb, hb'⟩ := ht.dQ _ in1 in2 i n m hi hn hm
      have e2 : mid F s s' (hd F.dQ [0, i, n, m]) = b := by rw [mid, if_neg (by simp [n1, n2]), if_pos (.inl k3), hb]
      rw [filter2_dQ asBool ninf h hi hn hm, e2, e1, hb']
    by_cases k4 : Of k F.dK
    · have n1 : ¬ Of k F.dV := of_ne (x := .dK) (y := .dV) h (by decide) k4
      have n2 : ¬ Of k F.sps := of_ne (x := .dK) (y := .sps) h (by decide) k4
      have e1 : fin F s s' k = s' k := by rw [fin, if_pos (.inr (.inr (.inr k4)))]
      obtain ⟨i, n, m, hi, hn, hm, rfl⟩ := of_heads h (by simp) k4
      obtain ⟨b, hb, hb'⟩ := ht.dK _ in1 in2 i n m hi hn hm
      have e2 : mid F s s' (hd F.dK [0, i, n, m]) = b := by rw [mid, if_neg (by simp [n1, n2]), if_pos (.inr k4), hb]
      rw [filter2_dK asBool ninf h hi hn hm, e2, e1, hb']
    have e1 : mid F s s' k = fin F s s' k := by
      rw [mid, fin]
      by_cases w : Of k F.dV ∨ Of k F.sps
      · rw [if_pos w, if_pos (by tauto)]
      · rw [if_neg w, if_neg (by tauto), if_neg (by tauto)]
    rw [List.filter_eq_nil_iff.2]
    · rw [foldBuf, e1]
    · intro u hu e
      rw [decide_eq_true_eq] at e
      subst e
      obtain ⟨T, hT, l, hl, e'⟩ := list2_out asBool ninf h hu
      simp only [List.mem_cons, List.not_mem_nil, or_false] at hT
      have := of_hd hl
      rw [← e'] at this
      obtain rfl | rfl := hT
      · exact k3 this
      · exact k4 this

/-- Backward propagation by the fused operation. -/
theorem backward_merge {s s' : Store α} (hs : F.tmp.Alloc s) (hs' : F.tmpGrad.Alloc s) (h00 : FP.eqb (0 : α) 0 = true) (h10 : FP.eqb (1 : α) 0 = false)
    (e : Exec (seqAsync (unfusedBackward asBool ninf (flashScale z.D) F.Q F.dQ F.K F.dK F.V F.dV F.mask F.mse F.dA F.tmp F.tmpGrad F.sps)) s s') :
    ∃ s'', Exec (flashBackwardAsync asBool ninf F.Q F.dQ F.K F.dK F.V F.dV F.mask F.mse F.dA F.tmp F.tmpGrad F.sps) s s'' ∧ Merge [F.dQ, F.dK, F.dV, F.sps] s s' s'' := by
  have ht := backward_ref asBool ninf h hs hs' h00 h10 e
  refine ⟨fin F s s', ⟨_, backward_ok asBool ninf h, ?_⟩, ?_, ?_⟩
  · rw [runAll1_append, run1 asBool ninf h ht, M.bind_ok, run2 asBool ninf h ht]
  · intro T hT i hi
    rw [fin, if_pos]
    simp only [List.mem_cons, List.not_mem_nil, or_false] at hT
    obtain rfl | rfl | rfl | rfl := hT
    · exact .inr (.inr (.inl ⟨rfl, hi⟩))
    · exact .inr (.inr (.inr ⟨rfl, hi⟩))
    · exact .inl ⟨rfl, hi⟩
    · exact .inr (.inl ⟨rfl, hi⟩)
  · intro k hk
    rw [fin, if_neg]
    rintro (w | w | w | w)
    · exact hk F.dV (by simp) w
    · exact hk F.sps (by simp) w
    · exact hk F.dQ (by simp) w
    · exact hk F.dK (by simp) w

end FlashBwd
end NNTile
