import Verif.Lib.FlashBwd
/-! `flash_softmax_gemm_backward` does the same as the separate operations: the separate operations tile by tile. -/
namespace NNTile
variable {α : Type}

section
variable [FP α] {z t : AttnDims} (ft : FlashTiles z t) (fp : FlashPos z t)
include ft fp

theorem addSlice_tile {P A : Tensor} (hP : P.IsSums z t) (hA : A.IsScores z t) (wP : P.WF) (wA : A.WF) (iP : P.id ≠ A.id) {s s' : Store α} (h10 : FP.eqb (1 : α) 0 = false)
    (e : Exec (addSliceAsync (-1) P 1 A 0) s s') :
    (∀ k : Handle, k.1 ≠ A.id → s' k = s k) ∧ ∀ j i n m, j < z.S / t.S → i < z.S / t.S → n < z.B / t.B → m < z.H / t.H →
      addSliceKernel 1 (t.S * (t.B * t.H)) t.S (-1) (s (P.id, lin P.grid [i, n, m])) 1 (s (A.id, lin A.grid [j, i, n, m])) =
        .ok (s' (A.id, lin A.grid [j, i, n, m])) := by
  have hsl : P.SliceOf A 0 := ⟨by rw [hA.1]; simp, by rw [hP.1, hA.1]; rfl, by rw [hP.2, hA.2]; rfl⟩
  have hB := addSlice_byTiles wP wA iP hsl (-1 : α) 1
  have gA := hA.grid ft fp
  refine ⟨fun k hk => hB.frame e hk, fun j i n m hj hi hn hm => ?_⟩
  have hin : InBox A.grid [j, i, n, m] := by rw [gA]; exact ⟨hj, hi, hn, hm, trivial⟩
  have := foldBuf_one (hB.tile e hin)
  simpa only [submitAddSlice, task1, Task1.inp, hA.tshape ft hj hi hn hm, mOf, nOf, kOf, List.take, List.drop, List.map_cons, List.map_nil, List.prod_cons, List.prod_nil,
    Nat.mul_one, List.eraseIdx_cons_zero, List.getD_cons_zero, Nat.zero_add, reduceCtorEq, if_false, h10, Bool.false_eq_true] using this

theorem prod_tile {P A : Tensor} (hP : P.IsScores z t) (hA : A.IsScores z t) (iP : P.id ≠ A.id) {s s' : Store α} (e : Exec (prodAsync P A) s s') :
    (∀ k : Handle, k.1 ≠ A.id → s' k = s k) ∧ ∀ j i n m, j < z.S / t.S → i < z.S / t.S → n < z.B / t.B → m < z.H / t.H →
      prodKernel (t.S * t.S * (t.B * t.H)) (s (P.id, lin P.grid [j, i, n, m])) (s (A.id, lin A.grid [j, i, n, m])) =
        .ok (s' (A.id, lin A.grid [j, i, n, m])) := by
  have hB := prod_byTiles (α := α) (src := P) (dst := A) ⟨iP, by rw [hP.1, hA.1], by rw [hP.2, hA.2]⟩
  have gA := hA.grid ft fp
  have gP := hP.grid ft fp
  refine ⟨fun k hk => hB.frame e hk, fun j i n m hj hi hn hm => ?_⟩
  have hin : InBox A.grid [j, i, n, m] := by rw [gA]; exact ⟨hj, hi, hn, hm, trivial⟩
  have := foldBuf_one (hB.tile e hin)
  rw [gP, ← gA]
  simpa only [submitProd, task1, Task1.inp, hA.tshape ft hj hi hn hm, List.map_cons, List.map_nil, List.prod_cons, List.prod_nil,
    Nat.mul_one, reduceCtorEq, if_false, Nat.mul_assoc] using this

theorem sumprod_tiles {A B P : Tensor} (hA : A.IsScores z t) (hB : B.IsScores z t) (hP : P.IsSums z t) (wA : A.WF) (wP : P.WF) (iA : A.id ≠ P.id) (iB : B.id ≠ P.id)
    {s s' : Store α} (e : Exec (sumprodSliceAsync 1 A B 1 P 0 false) s s') :
    (∀ k : Handle, k.1 ≠ P.id → s' k = s k) ∧ ∀ i n m, i < z.S / t.S → n < z.B / t.B → m < z.H / t.H →
      foldBuf s ((List.range (z.S / t.S)).map (fun j => submitSumprodSlice 1 (t.S * (t.B * t.H)) t.S 1 (A.id, lin A.grid [j, i, n, m]) (B.id, lin B.grid [j, i, n, m]) 1
        (P.id, lin P.grid [i, n, m]) false)) (s (P.id, lin P.grid [i, n, m])) = .ok (s' (P.id, lin P.grid [i, n, m])) := by
  have hsl : P.SliceOf A 0 := ⟨by rw [hA.1]; simp, by rw [hP.1, hA.1]; rfl, by rw [hP.2, hA.2]; rfl⟩
  have hT := sumprod_byTiles (α := α) wA wP iA iB hsl (by rw [hA.1, hB.1]) (by rw [hA.2, hB.2]) 1 1 false
  have gA := hA.grid ft fp
  have gB := hB.grid ft fp
  refine ⟨fun k hk => hT.frame e hk, fun i n m hi hn hm => ?_⟩
  have hin : InBox P.grid [i, n, m] := by rw [hP.grid ft fp]; exact ⟨hi, hn, hm, trivial⟩
  rw [← hT.tile e hin, gB, ← gA]
  have e1 : A.grid.getD 0 0 = z.S / t.S := by rw [gA]; rfl
  rw [e1]
  congr 1
  refine List.map_congr_left fun j hj => ?_
  rw [List.mem_range] at hj
  simp only [List.insertIdx_zero, hA.tshape ft hj hi hn hm, mOf, nOf, kOf, List.take, List.drop, List.prod_cons, List.prod_nil,
    Nat.mul_one, List.getD_cons_zero, Nat.zero_add, ite_self]

end

namespace FlashBwd
variable {F : FlashBwd} {z t : AttnDims} [FP α]

/-- Inputs. -/
def Ix.inputs : List Ix := [.Q, .K, .V, .mask, .mse, .dA]

/-- What backward propagation means for the contents of the tiles. -/
structure Tiled (F : FlashBwd) (z t : AttnDims) (asBool : α → Bool) (ninf : α) (s s' : Store α) : Prop where
  dV : ∀ i n m, i < z.S / t.S → n < z.B / t.B → m < z.H / t.H →
    foldBuf s (submitClear (hd F.dV [0, i, n, m]) :: (List.range (z.S / t.S)).map (dvT F z t asBool ninf i n m)) (s (hd F.dV [0, i, n, m])) = .ok (s' (hd F.dV [0, i, n, m]))
  sps : ∀ i n m, i < z.S / t.S → n < z.B / t.B → m < z.H / t.H →
    foldBuf s ((List.range (z.S / t.S)).map (fun i' => spT F z t asBool ninf i' n m i)) (s (hd F.sps [i, n, m])) = .ok (s' (hd F.sps [i, n, m]))
  dQ : ∀ sX : Store α, (∀ x ∈ Ix.inputs, ∀ l, sX ((F.tens x).id, l) = s ((F.tens x).id, l)) → (∀ l, InBox F.sps.grid l → sX (hd F.sps l) = s' (hd F.sps l)) →
    ∀ i n m, i < z.S / t.S → n < z.B / t.B → m < z.H / t.H → ∃ b, foldBuf s [submitClear (hd F.dQ [0, i, n, m])] (s (hd F.dQ [0, i, n, m])) = .ok b ∧
      foldBuf sX ((List.range (z.S / t.S)).map (fun i' => dqT F z t asBool ninf i' n m i)) b = .ok (s' (hd F.dQ [0, i, n, m]))
  dK : ∀ sX : Store α, (∀ x ∈ Ix.inputs, ∀ l, sX ((F.tens x).id, l) = s ((F.tens x).id, l)) → (∀ l, InBox F.sps.grid l → sX (hd F.sps l) = s' (hd F.sps l)) →
    ∀ i n m, i < z.S / t.S → n < z.B / t.B → m < z.H / t.H → ∃ b, foldBuf s [submitClear (hd F.dK [0, i, n, m])] (s (hd F.dK [0, i, n, m])) = .ok b ∧
      foldBuf sX ((List.range (z.S / t.S)).map (dkT F z t asBool ninf i n m)) b = .ok (s' (hd F.dK [0, i, n, m]))

variable (asBool : α → Bool) (ninf : α) (h : F.Fits z t)
include h

set_option maxHeartbeats 2000000 in
theorem backward_ref {s s' : Store α} (hs : F.tmp.Alloc s) (hs' : F.tmpGrad.Alloc s) (h00 : FP.eqb (0 : α) 0 = true) (h10 : FP.eqb (1 : α) 0 = false)
    (e : Exec (seqAsync (unfusedBackward asBool ninf (flashScale z.D) F.Q F.dQ F.K F.dK F.V F.dV F.mask F.mse F.dA F.tmp F.tmpGrad F.sps)) s s') :
    Tiled F z t asBool ninf s s' := by
  have ft := h.tiles
  have fp := h.pos
  have hQ := h.heads F.Q (by simp)
  have hK := h.heads F.K (by simp)
  have hV := h.heads F.V (by simp)
  have hdQ := h.heads F.dQ (by simp)
  have hdK := h.heads F.dK (by simp)
  have hdV := h.heads F.dV (by simp)
  have hdA := h.heads F.dA (by simp)
  have ne : ∀ x y : Ix, x ≠ y → (F.tens x).id ≠ (F.tens y).id := fun x y => h.inj
  simp only [unfusedBackward] at e
  rw [Exec.append_iff] at e
  obtain ⟨s1, e1, e⟩ := e
  rw [Exec.cons_iff] at e
  obtain ⟨s2, e2, e⟩ := e
  rw [Exec.cons_iff] at e
  obtain ⟨s3, e3, e⟩ := e
  rw [Exec.cons_iff] at e
  obtain ⟨s4, e4, e⟩ := e
  rw [Exec.cons_iff] at e
  obtain ⟨s5, e5, e⟩ := e
  rw [Exec.cons_iff] at e
  obtain ⟨s6, e6, e⟩ := e
  rw [Exec.cons_iff] at e
  obtain ⟨s7, e7, e⟩ := e
  rw [Exec.cons_iff] at e
  obtain ⟨s8, e8, e⟩ := e
  rw [Exec.cons_iff] at e
  obtain ⟨s9, e9, e⟩ := e
  rw [Exec.cons_iff] at e
  obtain ⟨s10, e10, e⟩ := e
  rw [Exec.cons_iff] at e
  obtain ⟨s11, e11, e⟩ := e
  rw [Exec.last] at e
  have wf := h.wf'
  obtain ⟨f1, k1⟩ := weights_tiles ft fp hQ hK h.mask h.mse h.tmp (wf .Q) (wf .K) (wf .mask) (wf .mse) (wf .tmp) (ne .Q .tmp (by decide)) (ne .K .tmp (by decide))
    (ne .mask .tmp (by decide)) (ne .mse .tmp (by decide)) hs h00 asBool ninf e1
  have k2 := fun l (hl : InBox F.dV.grid l) => (clear_byTiles F.dV).tile e2 hl
  have f2 := fun (k : Handle) (hk : k.1 ≠ F.dV.id) => (clear_byTiles F.dV).frame e2 hk
  obtain ⟨f3, k3⟩ := gemm_heads_tiles ft fp hdA h.tmp hdV (wf .dA) (wf .tmp) (wf .dV) (ne .dA .dV (by decide)) (ne .tmp .dV (by decide)) _ _ e3
  have al3 : F.tmpGrad.Alloc s3 := by
    intro i hi
    rw [← hs' i hi, f3 _ (ne .tmpGrad .dV (by decide)), f2 _ (ne .tmpGrad .dV (by decide)), f1 _ (ne .tmpGrad .tmp (by decide))]
  obtain ⟨f4, k4⟩ := gemm_scores_tile ft fp hV hdA h.tmpGrad (wf .V) (wf .dA) (wf .tmpGrad) (ne .V .tmpGrad (by decide)) (ne .dA .tmpGrad (by decide)) al3 h00 _ e4
  obtain ⟨f5, k5⟩ := sumprod_tiles ft fp h.tmpGrad h.tmp h.sps (wf .tmpGrad) (wf .sps) (ne .tmpGrad .sps (by decide)) (ne .tmp .sps (by decide)) e5
  obtain ⟨f6, k6⟩ := addSlice_tile ft fp h.sps h.tmpGrad (wf .sps) (wf .tmpGrad) (ne .sps .tmpGrad (by decide)) h10 e6
  obtain ⟨f7, k7⟩ := prod_tile ft fp h.tmp h.tmpGrad (ne .tmp .tmpGrad (by decide)) e7
  obtain ⟨f8, k8⟩ := mask_tile ft fp h.mask h.tmpGrad (wf .mask) (wf .tmpGrad) (ne .mask .tmpGrad (by decide)) asBool 0 e8
  have k9 := fun l (hl : InBox F.dQ.grid l) => (clear_byTiles F.dQ).tile e9 hl
  have f9 := fun (k : Handle) (hk : k.1 ≠ F.dQ.id) => (clear_byTiles F.dQ).frame e9 hk
  obtain ⟨f10, k10⟩ := gemm_heads_tiles ft fp hK h.tmpGrad hdQ (wf .K) (wf .tmpGrad) (wf .dQ) (ne .K .dQ (by decide)) (ne .tmpGrad .dQ (by decide)) _ _ e10
  have k11 := fun l (hl : InBox F.dK.grid l) => (clear_byTiles F.dK).tile e11 hl
  have f11 := fun (k : Handle) (hk : k.1 ≠ F.dK.id) => (clear_byTiles F.dK).frame e11 hk
  obtain ⟨f12, k12⟩ := gemm_heads_tiles ft fp hQ h.tmpGrad hdK (wf .Q) (wf .tmpGrad) (wf .dK) (ne .Q .dK (by decide)) (ne .tmpGrad .dK (by decide)) _ _ e
  -- frames in terms of the numbering
  have g1 : ∀ x : Ix, x ≠ .tmp → ∀ l, s1 ((F.tens x).id, l) = s ((F.tens x).id, l) := fun x hx l => f1 _ (ne x .tmp hx)
  have g2 : ∀ x : Ix, x ≠ .dV → ∀ l, s2 ((F.tens x).id, l) = s1 ((F.tens x).id, l) := fun x hx l => f2 _ (ne x .dV hx)
  have g3 : ∀ x : Ix, x ≠ .dV → ∀ l, s3 ((F.tens x).id, l) = s2 ((F.tens x).id, l) := fun x hx l => f3 _ (ne x .dV hx)
  have g4 : ∀ x : Ix, x ≠ .tmpGrad → ∀ l, s4 ((F.tens x).id, l) = s3 ((F.tens x).id, l) := fun x hx l => f4 _ (ne x .tmpGrad hx)
  have g5 : ∀ x : Ix, x ≠ .sps → ∀ l, s5 ((F.tens x).id, l) = s4 ((F.tens x).id, l) := fun x hx l => f5 _ (ne x .sps hx)
  have g6 : ∀ x : Ix, x ≠ .tmpGrad → ∀ l, s6 ((F.tens x).id, l) = s5 ((F.tens x).id, l) := fun x hx l => f6 _ (ne x .tmpGrad hx)
  have g7 : ∀ x : Ix, x ≠ .tmpGrad → ∀ l, s7 ((F.tens x).id, l) = s6 ((F.tens x).id, l) := fun x hx l => f7 _ (ne x .tmpGrad hx)
  have g8 : ∀ x : Ix, x ≠ .tmpGrad → ∀ l, s8 ((F.tens x).id, l) = s7 ((F.tens x).id, l) := fun x hx l => f8 _ (ne x .tmpGrad hx)
  have g9 : ∀ x : Ix, x ≠ .dQ → ∀ l, s9 ((F.tens x).id, l) = s8 ((F.tens x).id, l) := fun x hx l => f9 _ (ne x .dQ hx)
  have g10 : ∀ x : Ix, x ≠ .dQ → ∀ l, s10 ((F.tens x).id, l) = s9 ((F.tens x).id, l) := fun x hx l => f10 _ (ne x .dQ hx)
  have g11 : ∀ x : Ix, x ≠ .dK → ∀ l, s11 ((F.tens x).id, l) = s10 ((F.tens x).id, l) := fun x hx l => f11 _ (ne x .dK hx)
  have g12 : ∀ x : Ix, x ≠ .dK → ∀ l, s' ((F.tens x).id, l) = s11 ((F.tens x).id, l) := fun x hx l => f12 _ (ne x .dK hx)
  clear f1 f2 f3 f4 f5 f6 f7 f8 f9 f10 f11 f12 e1 e2 e3 e4 e5 e6 e7 e8 e9 e10 e11 e
  have inE : ∀ x ∈ Ix.inputs, x ≠ .tmp ∧ x ≠ .dV ∧ x ≠ .tmpGrad ∧ x ≠ .sps ∧ x ≠ .dQ ∧ x ≠ .dK := by decide
  have a2 : ∀ x ∈ Ix.inputs, ∀ l, s2 ((F.tens x).id, l) = s ((F.tens x).id, l) := fun x hx l => by
    obtain ⟨q1, q2, q3, q4, q5, q6⟩ := inE x hx
    rw [g2 x q2, g1 x q1]
  have a3 : ∀ x ∈ Ix.inputs, ∀ l, s3 ((F.tens x).id, l) = s ((F.tens x).id, l) := fun x hx l => by
    obtain ⟨q1, q2, q3, q4, q5, q6⟩ := inE x hx
    rw [g3 x q2, a2 x hx]
  have a4 : ∀ x ∈ Ix.inputs, ∀ l, s4 ((F.tens x).id, l) = s ((F.tens x).id, l) := fun x hx l => by
    obtain ⟨q1, q2, q3, q4, q5, q6⟩ := inE x hx
    rw [g4 x q3, a3 x hx]
  have a7 : ∀ x ∈ Ix.inputs, ∀ l, s7 ((F.tens x).id, l) = s ((F.tens x).id, l) := fun x hx l => by
    obtain ⟨q1, q2, q3, q4, q5, q6⟩ := inE x hx
    rw [g7 x q3, g6 x q3, g5 x q4, a4 x hx]
  have a9 : ∀ x ∈ Ix.inputs, ∀ l, s9 ((F.tens x).id, l) = s ((F.tens x).id, l) := fun x hx l => by
    obtain ⟨q1, q2, q3, q4, q5, q6⟩ := inE x hx
    rw [g9 x q5, g8 x q3, a7 x hx]
  have a11 : ∀ x ∈ Ix.inputs, ∀ l, s11 ((F.tens x).id, l) = s ((F.tens x).id, l) := fun x hx l => by
    obtain ⟨q1, q2, q3, q4, q5, q6⟩ := inE x hx
    rw [g11 x q6, g10 x q5, a9 x hx]
  have bV : ∀ l, s' (F.dV.id, l) = s3 (F.dV.id, l) := fun l => (g12 .dV (by decide) l).trans <| (g11 .dV (by decide) l).trans <| (g10 .dV (by decide) l).trans <|
    (g9 .dV (by decide) l).trans <| (g8 .dV (by decide) l).trans <| (g7 .dV (by decide) l).trans <| (g6 .dV (by decide) l).trans <| (g5 .dV (by decide) l).trans
    (g4 .dV (by decide) l)
  have bS : ∀ l, s' (F.sps.id, l) = s5 (F.sps.id, l) := fun l => (g12 .sps (by decide) l).trans <| (g11 .sps (by decide) l).trans <| (g10 .sps (by decide) l).trans <|
    (g9 .sps (by decide) l).trans <| (g8 .sps (by decide) l).trans <| (g7 .sps (by decide) l).trans (g6 .sps (by decide) l)
  have bQ : ∀ l, s' (F.dQ.id, l) = s10 (F.dQ.id, l) := fun l => (g12 .dQ (by decide) l).trans (g11 .dQ (by decide) l)
  have bT2 : ∀ l, s2 (F.tmp.id, l) = s1 (F.tmp.id, l) := g2 .tmp (by decide)
  have bT4 : ∀ l, s4 (F.tmp.id, l) = s1 (F.tmp.id, l) := fun l => (g4 .tmp (by decide) l).trans <| (g3 .tmp (by decide) l).trans (bT2 l)
  have bT6 : ∀ l, s6 (F.tmp.id, l) = s1 (F.tmp.id, l) := fun l => (g6 .tmp (by decide) l).trans <| (g5 .tmp (by decide) l).trans (bT4 l)
  have bG5 : ∀ l, s5 (F.tmpGrad.id, l) = s4 (F.tmpGrad.id, l) := g5 .tmpGrad (by decide)
  have bG9 : ∀ l, s9 (F.tmpGrad.id, l) = s8 (F.tmpGrad.id, l) := g9 .tmpGrad (by decide)
  have bG11 : ∀ l, s11 (F.tmpGrad.id, l) = s8 (F.tmpGrad.id, l) := fun l => (g11 .tmpGrad (by decide) l).trans <| (g10 .tmpGrad (by decide) l).trans (bG9 l)
  have cV : ∀ l, s1 (F.dV.id, l) = s (F.dV.id, l) := g1 .dV (by decide)
  have cS : ∀ l, s4 (F.sps.id, l) = s (F.sps.id, l) := fun l => (g4 .sps (by decide) l).trans <| (g3 .sps (by decide) l).trans <| (g2 .sps (by decide) l).trans (g1 .sps (by decide) l)
  have cQ : ∀ l, s8 (F.dQ.id, l) = s (F.dQ.id, l) := fun l => (g8 .dQ (by decide) l).trans <| (g7 .dQ (by decide) l).trans <| (g6 .dQ (by decide) l).trans <|
    (g5 .dQ (by decide) l).trans <| (g4 .dQ (by decide) l).trans <| (g3 .dQ (by decide) l).trans <| (g2 .dQ (by decide) l).trans (g1 .dQ (by decide) l)
  have cK : ∀ l, s10 (F.dK.id, l) = s (F.dK.id, l) := fun l => (g10 .dK (by decide) l).trans <| (g9 .dK (by decide) l).trans <| (g8 .dK (by decide) l).trans <|
    (g7 .dK (by decide) l).trans <| (g6 .dK (by decide) l).trans <|
    (g5 .dK (by decide) l).trans <| (g4 .dK (by decide) l).trans <| (g3 .dK (by decide) l).trans <| (g2 .dK (by decide) l).trans (g1 .dK (by decide) l)
  have i2 : ∀ l, s2 (F.dA.id, l) = s (F.dA.id, l) := a2 .dA (by decide)
  have i3A : ∀ l, s3 (F.dA.id, l) = s (F.dA.id, l) := a3 .dA (by decide)
  have i3V : ∀ l, s3 (F.V.id, l) = s (F.V.id, l) := a3 .V (by decide)
  have i7 : ∀ l, s7 (F.mask.id, l) = s (F.mask.id, l) := a7 .mask (by decide)
  have i9 : ∀ l, s9 (F.K.id, l) = s (F.K.id, l) := a9 .K (by decide)
  have i11 : ∀ l, s11 (F.Q.id, l) = s (F.Q.id, l) := a11 .Q (by decide)
  -- the gradient of the weights
  have G4 : ∀ j i n m, j < z.S / t.S → i < z.S / t.S → n < z.B / t.B → m < z.H / t.H → flashWeightsGrad t.S z.D (t.B * t.H) [t.S, t.S, t.B, t.H].prod
      (s (F.dA.id, lin F.dA.grid [0, i, n, m])) (s (F.V.id, lin F.V.grid [0, j, n, m])) = .ok (s4 (F.tmpGrad.id, lin F.tmpGrad.grid [j, i, n, m])) := by
    intro j i n m hj hi hn hm
    have := k4 j i n m hj hi hn hm
    rw [i3A, i3V, ft.D] at this
    rw [flashWeightsGrad, this]
  have G8 : ∀ j i n m, j < z.S / t.S → i < z.S / t.S → n < z.B / t.B → m < z.H / t.H → flashScoresGrad asBool ninf t.S z.D (t.B * t.H) [t.S, t.S, t.B, t.H].prod
      [t.S, t.S, t.B, t.H].prod (s (F.K.id, lin F.K.grid [0, j, n, m])) (s (F.Q.id, lin F.Q.grid [0, i, n, m])) (s (F.mask.id, lin F.mask.grid [j, i]))
      (s (F.mse.id, lin F.mse.grid [0, i, n, m])) (s (F.dA.id, lin F.dA.grid [0, i, n, m])) (s (F.V.id, lin F.V.grid [0, j, n, m]))
      (s' (F.sps.id, lin F.sps.grid [i, n, m])) = .ok (s8 (F.tmpGrad.id, lin F.tmpGrad.grid [j, i, n, m])) := by
    intro j i n m hj hi hn hm
    have q6 := k6 j i n m hj hi hn hm
    have q7 := k7 j i n m hj hi hn hm
    have q8 := k8 j i n m hj hi hn hm
    rw [bG5] at q6
    rw [bT6] at q7
    rw [i7] at q8
    rw [flashScoresGrad, k1 j i n m hj hi hn hm, M.bind_ok, G4 j i n m hj hi hn hm, M.bind_ok, bS, q6, M.bind_ok, q7, M.bind_ok, q8]
  have one : ∀ {u : Task1 α} {st st' : Store α} {b c : Buf α}, u.reads = [] → foldBuf st [u] b = .ok c → foldBuf st' [u] b = .ok c := by
    intro u st st' b c hu hf
    simpa only [foldBuf, hu, List.map_nil] using hf
  have inb : ∀ {T : Tensor}, T ∈ [F.Q, F.dQ, F.K, F.dK, F.V, F.dV, F.dA] → ∀ {i n m : Nat}, i < z.S / t.S → n < z.B / t.B → m < z.H / t.H → InBox T.grid [0, i, n, m] :=
    fun {_} hT {_ _ _} hi hn hm => grid_heads h hT hi hn hm
  constructor
  · intro i n m hi hn hm
    have q2 := k2 _ (inb (T := F.dV) (by simp) hi hn hm)
    have q3 := k3 i n m hi hn hm
    rw [cV] at q2
    have q2 := one (st' := s) rfl q2
    simp only [hd, bV]
    rw [← List.singleton_append, foldBuf_append, q2, M.bind_ok, ← q3]
    refine foldBuf_map (fun j hj b => ?_) _
    rw [List.mem_range] at hj
    have := k1 i j n m hi hj hn hm
    simp only [dvT, hd, submitGemm, task2, List.map_cons, List.map_nil,
      flashDVKernel, this, M.bind_ok, Task1.inp, reduceCtorEq, if_false, Bool.false_eq_true, reduceMode, h10, ite_self, TransOp.sel, i2, bT2, ft.D]
  · intro i n m hi hn hm
    have q5 := k5 i n m hi hn hm
    rw [cS] at q5
    simp only [hd, bS]
    rw [← q5]
    refine foldBuf_map (fun j hj b => ?_) _
    rw [List.mem_range] at hj
    simp only [spT, hd, submitSumprodSlice, task2, List.map_cons, List.map_nil, flashSumprodKernel, k1 j i n m hj hi hn hm, G4 j i n m hj hi hn hm, M.bind_ok, Task1.inp,
      reduceCtorEq, if_false, Bool.false_eq_true, reduceMode, h10, ite_self, bT4]
  · intro sX hX hX' i n m hi hn hm
    have q9 := k9 _ (inb (T := F.dQ) (by simp) hi hn hm)
    have q10 := k10 i n m hi hn hm
    rw [cQ] at q9
    refine ⟨_, one rfl q9, ?_⟩
    simp only [hd, bQ]
    rw [← q10]
    refine foldBuf_map (fun j hj b => ?_) _
    rw [List.mem_range] at hj
    have := G8 j i n m hj hi hn hm
    have xS := hX' _ (grid_sps h hi hn hm)
    simp only [dqT, hd, submitGemm, task2, List.map_cons, List.map_nil, flashDQKernel, M.bind_ok, Task1.inp, reduceCtorEq, if_false, Bool.false_eq_true, reduceMode, h10, ite_self,
      TransOp.sel, i9, bG9, ft.D]
    have x1 : ∀ l, sX (F.K.id, l) = s (F.K.id, l) := hX .K (by decide)
    have x2 : ∀ l, sX (F.Q.id, l) = s (F.Q.id, l) := hX .Q (by decide)
    have x3 : ∀ l, sX (F.mask.id, l) = s (F.mask.id, l) := hX .mask (by decide)
    have x4 : ∀ l, sX (F.mse.id, l) = s (F.mse.id, l) := hX .mse (by decide)
    have x5 : ∀ l, sX (F.dA.id, l) = s (F.dA.id, l) := hX .dA (by decide)
    have x6 : ∀ l, sX (F.V.id, l) = s (F.V.id, l) := hX .V (by decide)
    simp only [hd] at xS
    rw [x1, x2, x3, x4, x5, x6, xS, this, M.bind_ok]
  · intro sX hX hX' i n m hi hn hm
    have q9 := k11 _ (inb (T := F.dK) (by simp) hi hn hm)
    have q10 := k12 i n m hi hn hm
    rw [cK] at q9
    refine ⟨_, one rfl q9, ?_⟩
    simp only [hd]
    rw [← q10]
    refine foldBuf_map (fun j hj b => ?_) _
    rw [List.mem_range] at hj
    have := G8 i j n m hi hj hn hm
    have xS := hX' _ (grid_sps h hj hn hm)
    simp only [dkT, hd, submitGemm, task2, List.map_cons, List.map_nil, flashDKKernel, M.bind_ok, Task1.inp, reduceCtorEq, if_false, Bool.false_eq_true, reduceMode, h10, ite_self,
      TransOp.sel, i11, bG11, ft.D]
    have x1 : ∀ l, sX (F.K.id, l) = s (F.K.id, l) := hX .K (by decide)
    have x2 : ∀ l, sX (F.Q.id, l) = s (F.Q.id, l) := hX .Q (by decide)
    have x3 : ∀ l, sX (F.mask.id, l) = s (F.mask.id, l) := hX .mask (by decide)
    have x4 : ∀ l, sX (F.mse.id, l) = s (F.mse.id, l) := hX .mse (by decide)
    have x5 : ∀ l, sX (F.dA.id, l) = s (F.dA.id, l) := hX .dA (by decide)
    have x6 : ∀ l, sX (F.V.id, l) = s (F.V.id, l) := hX .V (by decide)
    simp only [hd] at xS
    rw [x1, x2, x3, x4, x5, x6, xS, this, M.bind_ok]

end FlashBwd
end NNTile
