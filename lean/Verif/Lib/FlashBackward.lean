import Verif.Lib.FlashRefine
/-! The tasks of `flash_softmax_gemm_backward`. -/
namespace NNTile
variable {α : Type}

/-- Loop over batches of heads, batches and tiles of the sequence. -/
def loops3 {τ : Type} (gS gB gH : Nat) (G : Nat → Nat → Nat → List τ) : List τ :=
  (List.range gH).flatMap (fun m => (List.range gB).flatMap (fun n => (List.range gS).flatMap (fun i => G i n m)))

theorem loops3_congr {τ : Type} {gS gB gH : Nat} {G G' : Nat → Nat → Nat → List τ} (h : ∀ i n m, i < gS → n < gB → m < gH → G i n m = G' i n m) :
    loops3 gS gB gH G = loops3 gS gB gH G' := by
  unfold loops3
  rw [List.flatMap_def, List.flatMap_def]
  congr 1
  refine List.map_congr_left fun m hm => ?_
  rw [List.flatMap_def, List.flatMap_def]
  congr 1
  refine List.map_congr_left fun n hn => ?_
  rw [List.flatMap_def, List.flatMap_def]
  congr 1
  refine List.map_congr_left fun i hi => ?_
  rw [List.mem_range] at hi hn hm
  exact h i n m hi hn hm

theorem mem_loops3 {τ : Type} {gS gB gH : Nat} {G : Nat → Nat → Nat → List τ} {u : τ} : u ∈ loops3 gS gB gH G ↔ ∃ i n m, i < gS ∧ n < gB ∧ m < gH ∧ u ∈ G i n m := by
  simp only [loops3, List.mem_flatMap, List.mem_range]
  constructor
  · rintro ⟨m, hm, n, hn, i, hi, hu⟩
    exact ⟨i, n, m, hi, hn, hm, hu⟩
  · rintro ⟨i, n, m, hi, hn, hm, hu⟩
    exact ⟨m, hm, n, hn, i, hi, hu⟩

theorem filter_loops3 {τ : Type} {gS gB gH : Nat} {G : Nat → Nat → Nat → List τ} {p : τ → Bool} {n0 m0 : Nat} (hn0 : n0 < gB) (hm0 : m0 < gH)
    (h : ∀ i n m, i < gS → n < gB → m < gH → ¬ (n = n0 ∧ m = m0) → ∀ u ∈ G i n m, p u = false) :
    (loops3 gS gB gH G).filter p = ((List.range gS).flatMap (fun i => G i n0 m0)).filter p := by
  rw [loops3, filter_flatMap_unique m0 hm0, filter_flatMap_unique n0 hn0]
  · intro n hn hne u hu
    simp only [List.mem_flatMap, List.mem_range] at hu
    obtain ⟨i, hi, hu⟩ := hu
    exact h i n m0 hi hn hm0 (fun e => hne e.1) u hu
  · intro m hm hne u hu
    simp only [List.mem_flatMap, List.mem_range] at hu
    obtain ⟨n, hn, i, hi, hu⟩ := hu
    exact h i n m hi hn hm (fun e => hne e.2) u hu

section
variable {z t : AttnDims} (ft : FlashTiles z t) (fp : FlashPos z t)
include ft fp

/-- The loop over the tiles of a tensor. -/
theorem tiles_loops3 {τ : Type} {T : Tensor} (hT : T.IsHeads z t) (g : List Nat → List τ) :
    (List.range T.ntiles).flatMap (fun i => g (T.tindex i)) = loops3 (z.S / t.S) (z.B / t.B) (z.H / t.H) (fun i n m => g [0, i, n, m]) := by
  have gT := hT.grid ft fp
  have en : T.ntiles = z.H / t.H * (z.B / t.B) * (z.S / t.S) := by
    rw [Tensor.ntiles, gT]
    simp only [List.prod_cons, List.prod_nil]
    ring
  rw [en, ← flatMap_range_mul, ← flatMap_range_mul]
  rw [loops3, List.flatMap_def, List.flatMap_def]
  congr 1
  refine List.map_congr_left fun m hm => ?_
  rw [List.flatMap_def, List.flatMap_def]
  congr 1
  refine List.map_congr_left fun n hn => ?_
  rw [List.flatMap_def, List.flatMap_def]
  congr 1
  refine List.map_congr_left fun i hi => ?_
  rw [List.mem_range] at hi hn hm
  have hin : InBox T.grid [0, i, n, m] := by rw [gT]; exact ⟨by decide, hi, hn, hm, trivial⟩
  have : (m * (z.B / t.B) + n) * (z.S / t.S) + i = lin T.grid [0, i, n, m] := by
    rw [gT]
    simp only [lin_cons, lin_nil, Nat.mul_zero, Nat.add_zero]
    ring
  rw [this, Tensor.tindex_lin hin]

set_option maxHeartbeats 1000000 in
/-- The tasks of backward propagation. -/
theorem flashBackwardLoops_ok {τ : Type} (clear : Handle → List τ)
    (sub1 : Nat → Nat → Nat → Handle → Handle → Handle → Handle → Handle → Handle → Handle → Handle → Nat → Nat → List τ)
    (sub2 : Nat → Nat → Nat → Handle → Handle → Handle → Handle → Handle → Handle → Handle → Handle → Handle → Nat → Nat → List τ)
    {Q dQ K dK V dV mask mse dA tmp tmp' sps : Tensor} (hQ : Q.IsHeads z t) (hdQ : dQ.IsHeads z t) (hK : K.IsHeads z t) (hdK : dK.IsHeads z t) (hV : V.IsHeads z t)
    (hdV : dV.IsHeads z t) (hM : mask.IsMask z t) (hm : mse.IsPairs z t) (hdA : dA.IsHeads z t) (hT : tmp.IsScores z t) (hT' : tmp'.IsScores z t) (hs : sps.IsSums z t) :
    flashBackwardLoops clear sub1 sub2 Q dQ K dK V dV mask mse dA tmp tmp' sps = .ok (
      loops3 (z.S / t.S) (z.B / t.B) (z.H / t.H) (fun i n m => clear (dQ.id, lin dQ.grid [0, i, n, m]) ++ clear (dK.id, lin dK.grid [0, i, n, m]) ++
        clear (dV.id, lin dV.grid [0, i, n, m]) ++ (List.range (z.S / t.S)).flatMap (fun j => sub1 t.S z.D (t.B * t.H) (K.id, lin K.grid [0, i, n, m])
          (Q.id, lin Q.grid [0, j, n, m]) (mask.id, lin mask.grid [i, j]) (mse.id, lin mse.grid [0, j, n, m]) (dA.id, lin dA.grid [0, j, n, m])
          (V.id, lin V.grid [0, i, n, m]) (dV.id, lin dV.grid [0, i, n, m]) (sps.id, lin sps.grid [j, n, m]) [t.S, t.S, t.B, t.H].prod [t.S, t.S, t.B, t.H].prod)) ++
      loops3 (z.S / t.S) (z.B / t.B) (z.H / t.H) (fun i n m => (List.range (z.S / t.S)).flatMap (fun j => sub2 t.S z.D (t.B * t.H) (K.id, lin K.grid [0, i, n, m])
          (Q.id, lin Q.grid [0, j, n, m]) (mask.id, lin mask.grid [i, j]) (mse.id, lin mse.grid [0, j, n, m]) (dA.id, lin dA.grid [0, j, n, m])
          (V.id, lin V.grid [0, i, n, m]) (sps.id, lin sps.grid [j, n, m]) (dQ.id, lin dQ.grid [0, j, n, m]) (dK.id, lin dK.grid [0, i, n, m])
          [t.S, t.S, t.B, t.H].prod [t.S, t.S, t.B, t.H].prod))) := by
  have gm := hm.grid ft fp
  have gQ := hQ.grid ft fp
  have gdQ := hdQ.grid ft fp
  have gK := hK.grid ft fp
  have gdK := hdK.grid ft fp
  have gV := hV.grid ft fp
  have gdV := hdV.grid ft fp
  have gdA := hdA.grid ft fp
  have gM := hM.grid ft fp
  have gs := hs.grid ft fp
  have nQ : dQ.ntiles = dV.ntiles := by rw [Tensor.ntiles, gdQ, Tensor.ntiles, gdV]
  have nK : dK.ntiles = dV.ntiles := by rw [Tensor.ntiles, gdK, Tensor.ntiles, gdV]
  have nt : ∀ i n m, lin dQ.grid [0, i, n, m] = lin dV.grid [0, i, n, m] ∧ lin dK.grid [0, i, n, m] = lin dV.grid [0, i, n, m] := fun i n m => by rw [gdQ, gdV, gdK]; simp
  simp only [flashBackwardLoops, hQ.1, hQ.2]
  rw [vget_ok (by simp), M.bind_ok, vget_ok (by simp), M.bind_ok, vget_ok (by simp), M.bind_ok, vget_ok (by simp), M.bind_ok]
  simp only [List.getD_cons_succ, List.getD_cons_zero]
  have first : ∀ {f : Nat → M (List τ)} {g : List Nat → List τ}, (∀ i n m, i < z.S / t.S → n < z.B / t.B → m < z.H / t.H → lin dV.grid [0, i, n, m] < dV.ntiles →
      dV.tindex (lin dV.grid [0, i, n, m]) = [0, i, n, m] → f (lin dV.grid [0, i, n, m]) = .ok (g [0, i, n, m])) →
      forTasks dV.ntiles f = .ok (loops3 (z.S / t.S) (z.B / t.B) (z.H / t.H) (fun i n m => g [0, i, n, m])) := by
    intro f g hf
    rw [← tiles_loops3 ft fp hdV g]
    refine forTasks_ok fun i hi => ?_
    have hin := dV.tindex_inBox i
    have hin' := hin
    rw [gdV] at hin
    obtain ⟨x, i', n, m, hx, hi', hn, hm', e⟩ := mem_box4 (mem_box.2 hin)
    obtain rfl : x = 0 := by omega
    have := hf i' n m hi' hn hm' (by rw [← e]; exact lin_lt hin') (by rw [← e, Tensor.tindex_lin hin'])
    rw [← e, Tensor.lin_tindex hi] at this
    exact this
  rw [first (g := fun T => clear (dQ.id, lin dQ.grid T) ++ clear (dK.id, lin dK.grid T) ++
        clear (dV.id, lin dV.grid T) ++ (List.range (z.S / t.S)).flatMap (fun j => sub1 t.S z.D (t.B * t.H) (K.id, lin K.grid T)
          (Q.id, lin Q.grid (T.set 1 j)) (mask.id, lin mask.grid [T.getD 1 0, j]) (mse.id, lin mse.grid (T.set 1 j)) (dA.id, lin dA.grid (T.set 1 j))
          (V.id, lin V.grid T) (dV.id, lin dV.grid T) (sps.id, lin sps.grid [j, T.getD 2 0, T.getD 3 0]) [t.S, t.S, t.B, t.H].prod [t.S, t.S, t.B, t.H].prod)), M.bind_ok,
    first (g := fun T => (List.range (z.S / t.S)).flatMap (fun j => sub2 t.S z.D (t.B * t.H) (K.id, lin K.grid T)
          (Q.id, lin Q.grid (T.set 1 j)) (mask.id, lin mask.grid [T.getD 1 0, j]) (mse.id, lin mse.grid (T.set 1 j)) (dA.id, lin dA.grid (T.set 1 j))
          (V.id, lin V.grid T) (sps.id, lin sps.grid [j, T.getD 2 0, T.getD 3 0]) (dQ.id, lin dQ.grid (T.set 1 j)) (dK.id, lin dK.grid T)
          [t.S, t.S, t.B, t.H].prod [t.S, t.S, t.B, t.H].prod)), M.bind_ok]
  · rfl
  pick_goal 2
  · intro i n m hi hn hm' hlt ht
    have inK : InBox K.grid [0, i, n, m] := by rw [gK]; exact ⟨by decide, hi, hn, hm', trivial⟩
    have inV : InBox V.grid [0, i, n, m] := by rw [gV]; exact ⟨by decide, hi, hn, hm', trivial⟩
    have inner : ∀ j, j < z.S / t.S → InBox Q.grid [0, j, n, m] ∧ InBox dQ.grid [0, j, n, m] ∧ InBox dA.grid [0, j, n, m] ∧ InBox mse.grid [0, j, n, m] ∧ InBox sps.grid [j, n, m] ∧
        InBox mask.grid [i, j] := by
      intro j hj
      rw [gQ, gdQ, gdA, gm, gs, gM]
      exact ⟨⟨by decide, hj, hn, hm', trivial⟩, ⟨by decide, hj, hn, hm', trivial⟩, ⟨by decide, hj, hn, hm', trivial⟩, ⟨by decide, hj, hn, hm', trivial⟩,
        ⟨hj, hn, hm', trivial⟩, ⟨hi, hj, trivial⟩⟩
    obtain ⟨nt1, nt2⟩ := nt i n m
    simp only [ht]
    have eQ : Q.grid.getD 1 0 = z.S / t.S := by rw [gQ]; rfl
    rw [Tensor.handleL_ok (show _ < dQ.ntiles by rw [nQ]; exact hlt), M.bind_ok, Tensor.handleL_ok (show _ < dK.ntiles by rw [nK]; exact hlt), M.bind_ok, Tensor.handleL_ok hlt, M.bind_ok]
    rw [Tensor.handleAt_ok inK, M.bind_ok, Tensor.handleAt_ok inV, M.bind_ok, vget_ok (by simp), M.bind_ok, vget_ok (by simp), M.bind_ok, vget_ok (by simp), M.bind_ok,
      vget_ok (by rw [gQ]; simp), M.bind_ok, eQ]
    simp only [List.set_cons_zero, List.set_cons_succ, List.getD_cons_succ, List.getD_cons_zero]
    rw [forTasks_ok (g := fun j => sub1 t.S z.D (t.B * t.H) (K.id, lin K.grid [0, i, n, m])
          (Q.id, lin Q.grid [0, j, n, m]) (mask.id, lin mask.grid [i, j]) (mse.id, lin mse.grid [0, j, n, m]) (dA.id, lin dA.grid [0, j, n, m])
          (V.id, lin V.grid [0, i, n, m]) (dV.id, lin dV.grid [0, i, n, m]) (sps.id, lin sps.grid [j, n, m]) [t.S, t.S, t.B, t.H].prod [t.S, t.S, t.B, t.H].prod)]
    · rw [M.bind_ok, nt1, nt2]
    · intro j hj
      obtain ⟨q1, -, q3, q4, q5, q6⟩ := inner j hj
      simp only [scratchAt_ok ft fp hT hi hj hn hm', scratchAt_ok ft fp hT' hi hj hn hm', M.bind_ok, Tensor.handleAt_ok q1, Tensor.handleAt_ok q3, Tensor.handleAt_ok q4,
        Tensor.handleAt_ok q5, Tensor.handleAt_ok q6]
  · intro i n m hi hn hm' hlt ht
    have inK : InBox K.grid [0, i, n, m] := by rw [gK]; exact ⟨by decide, hi, hn, hm', trivial⟩
    have inV : InBox V.grid [0, i, n, m] := by rw [gV]; exact ⟨by decide, hi, hn, hm', trivial⟩
    have inner : ∀ j, j < z.S / t.S → InBox Q.grid [0, j, n, m] ∧ InBox dQ.grid [0, j, n, m] ∧ InBox dA.grid [0, j, n, m] ∧ InBox mse.grid [0, j, n, m] ∧ InBox sps.grid [j, n, m] ∧
        InBox mask.grid [i, j] := by
      intro j hj
      rw [gQ, gdQ, gdA, gm, gs, gM]
      exact ⟨⟨by decide, hj, hn, hm', trivial⟩, ⟨by decide, hj, hn, hm', trivial⟩, ⟨by decide, hj, hn, hm', trivial⟩, ⟨by decide, hj, hn, hm', trivial⟩,
        ⟨hj, hn, hm', trivial⟩, ⟨hi, hj, trivial⟩⟩
    obtain ⟨nt1, nt2⟩ := nt i n m
    simp only [ht]
    have eQ : dQ.grid.getD 1 0 = z.S / t.S := by rw [gdQ]; rfl
    rw [Tensor.handleL_ok (show _ < dK.ntiles by rw [nK]; exact hlt), M.bind_ok]
    rw [Tensor.handleAt_ok inK, M.bind_ok, Tensor.handleAt_ok inV, M.bind_ok, vget_ok (by simp), M.bind_ok, vget_ok (by simp), M.bind_ok, vget_ok (by simp), M.bind_ok,
      vget_ok (by rw [gdQ]; simp), M.bind_ok, eQ]
    simp only [List.set_cons_zero, List.set_cons_succ, List.getD_cons_succ, List.getD_cons_zero, nt2]
    refine forTasks_ok fun j hj => ?_
    obtain ⟨q1, q2, q3, q4, q5, q6⟩ := inner j hj
    simp only [scratchAt_ok ft fp hT hi hj hn hm', scratchAt_ok ft fp hT' hi hj hn hm', M.bind_ok, Tensor.handleAt_ok q1, Tensor.handleAt_ok q2, Tensor.handleAt_ok q3,
      Tensor.handleAt_ok q4, Tensor.handleAt_ok q5, Tensor.handleAt_ok q6]

end
end NNTile
