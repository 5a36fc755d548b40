import Verif.Lib.FlashTiles
import Verif.Lib.FlashForward
/-! FlashAttention with tiles that do not divide the tensors evenly. -/
namespace NNTile
variable {α : Type}

theorem forN_ok_inv {σ : Type} {n : Nat} {f : Nat → σ → M σ} (I : σ → Prop) (hf : ∀ i s s', I s → f i s = .ok s' → I s') {s s' : σ} (h : forN n f s = .ok s') (hs : I s) : I s' := by
  induction n generalizing s' with
  | zero => cases h; exact hs
  | succ n ih =>
    rw [forN_succ, M.bind_eq_ok] at h
    obtain ⟨s1, h1, h2⟩ := h
    exact hf n s1 s' (ih h1) h2

theorem Buf.wr_fits {b b' : Buf α} {i : Nat} {v : α} (h : b.wr i v = .ok b') : i < b.size ∧ b'.size = b.size := by
  unfold Buf.wr at h
  split at h
  · next hi => cases h; exact ⟨hi, rfl⟩
  · cases h

section
variable [FP α]

theorem cblas_step {beta a : α} {C C' : Buf α} {i : Nat} (h : (if FP.eqb beta 0 then C.wr i a else do
    let r ← C.rd i
    C.wr i (a + beta * r)) = .ok C') : i < C.size ∧ C'.size = C.size := by
  split at h
  · exact Buf.wr_fits h
  · rw [M.bind_eq_ok] at h
    obtain ⟨r, -, h⟩ := h
    exact Buf.wr_fits h

/-- If `gemm` succeeds then its result fits in the buffer. -/
theorem gemmKernel_size {tA tB : TransOp} {m n k batch : Nat} {alpha beta : α} {A B C C' : Buf α} (hm : 0 < m) (hn : 0 < n) (hb : 0 < batch)
    (h : gemmKernel tA tB m n k batch alpha A B beta C = .ok C') : m * n * batch ≤ C.size := by
  obtain ⟨m, rfl⟩ : ∃ m', m = m' + 1 := ⟨m - 1, by omega⟩
  obtain ⟨n, rfl⟩ : ∃ m', n = m' + 1 := ⟨n - 1, by omega⟩
  obtain ⟨batch, rfl⟩ : ∃ m', batch = m' + 1 := ⟨batch - 1, by omega⟩
  have row : ∀ (oA ldA oB ldB oC ldC j i : Nat) (C C' : Buf α), (do
      let acc ← forN k (fun l acc => do
        let x ← A.rd (oA + tA.sel (i + l*ldA) (l + i*ldA))
        let y ← B.rd (oB + tB.sel (l + j*ldB) (j + l*ldB))
        .ok (acc + x*y)) (0 : α)
      if FP.eqb beta 0 then
        C.wr (oC + (i + j*ldC)) (alpha * acc)
      else do
        let r ← C.rd (oC + (i + j*ldC))
        C.wr (oC + (i + j*ldC)) (alpha * acc + beta * r)) = .ok C' → oC + (i + j * ldC) < C.size ∧ C'.size = C.size := by
    intro oA ldA oB ldB oC ldC j i C C' h
    rw [M.bind_eq_ok] at h
    obtain ⟨acc, -, h⟩ := h
    exact cblas_step h
  have blas : ∀ (oA ldA oB ldB oC ldC : Nat) (C C' : Buf α), cblasGemm tA tB (m + 1) (n + 1) k alpha A oA ldA B oB ldB beta oC ldC C = .ok C' →
      oC + (m + n * ldC) < C.size ∧ C'.size = C.size := by
    intro oA ldA oB ldB oC ldC C C' h
    unfold cblasGemm at h
    have inner : ∀ (N : Nat) (j : Nat) (C C' : Buf α), forN N (fun i C => do
      let acc ← forN k (fun l acc => do
        let x ← A.rd (oA + tA.sel (i + l*ldA) (l + i*ldA))
        let y ← B.rd (oB + tB.sel (l + j*ldB) (j + l*ldB))
        .ok (acc + x*y)) (0 : α)
      if FP.eqb beta 0 then
        C.wr (oC + (i + j*ldC)) (alpha * acc)
      else do
        let r ← C.rd (oC + (i + j*ldC))
        C.wr (oC + (i + j*ldC)) (alpha * acc + beta * r)) C = .ok C' → C'.size = C.size := by
      intro N j C C' h
      exact forN_ok_inv (fun D => D.size = C.size) (fun i D D' hD e => ((row _ _ _ _ _ _ _ _ _ _ e).2).trans hD) h rfl
    have sz := forN_ok_inv (fun D => D.size = C.size) (fun i D D' hD e => (inner _ _ _ _ e).trans hD) h rfl
    refine ⟨?_, sz⟩
    rw [forN_succ, M.bind_eq_ok] at h
    obtain ⟨C1, e1, h⟩ := h
    have s1 := forN_ok_inv (fun D => D.size = C.size) (fun i D D' hD e => (inner _ _ _ _ e).trans hD) e1 rfl
    rw [forN_succ, M.bind_eq_ok] at h
    obtain ⟨C2, e2, h⟩ := h
    have s2 := inner _ _ _ _ e2
    have := (row _ _ _ _ _ _ _ _ _ _ h).1
    omega
  simp only [gemmKernel] at h
  rw [forN_succ, M.bind_eq_ok] at h
  obtain ⟨C1, e1, h⟩ := h
  have s1 := forN_ok_inv (fun D => D.size = C.size) (fun i D D' hD e => ((blas _ _ _ _ _ _ _ _ e).2).trans hD) e1 rfl
  have := (blas _ _ _ _ _ _ _ _ h).1
  rw [s1] at this
  have e : (m + 1) * (n + 1) * (batch + 1) = batch * ((m + 1) * (n + 1)) + (m + n * (m + 1)) + 1 := by ring
  omega

end

theorem uneven_last {S t : Nat} (hS : 0 < S) (ht : 0 < t) (h : ¬ t ∣ S) : min t (S - (S - 1) / t * t) < t := by
  have h1 := Nat.div_add_mod (S - 1) t
  have h2 := Nat.mod_lt (S - 1) ht
  rw [Nat.mul_comm] at h1
  have : S - (S - 1) / t * t = (S - 1) % t + 1 := by omega
  rw [this]
  rcases Nat.lt_or_ge ((S - 1) % t + 1) t with h3 | h3
  · omega
  · exfalso
    refine h ⟨(S - 1) / t + 1, ?_⟩
    rw [Nat.mul_add, Nat.mul_comm t]
    omega

theorem last_le (S t : Nat) : min t (S - (S - 1) / t * t) ≤ t := Nat.min_le_left _ _

/-- The scratch buffer of the last tile is too small. -/
theorem uneven_prod {z t : AttnDims} (fp : FlashPos z t) (hD : t.D = z.D) (h : ¬ FlashTiles z t) :
    [min t.S (z.S - (z.S - 1) / t.S * t.S), min t.S (z.S - (z.S - 1) / t.S * t.S), min t.B (z.B - (z.B - 1) / t.B * t.B), min t.H (z.H - (z.H - 1) / t.H * t.H)].prod <
      t.S * t.S * (t.B * t.H) := by
  have hS := last_le z.S t.S
  have hB := last_le z.B t.B
  have hH := last_le z.H t.H
  have eq : ∀ {S t : Nat}, 0 < S → 0 < t → (t ∣ S ∨ min t (S - (S - 1) / t * t) < t) := fun h1 h2 => or_iff_not_imp_left.2 (uneven_last h1 h2)
  have key : min t.S (z.S - (z.S - 1) / t.S * t.S) < t.S ∨ min t.B (z.B - (z.B - 1) / t.B * t.B) < t.B ∨ min t.H (z.H - (z.H - 1) / t.H * t.H) < t.H := by
    rcases eq fp.zS fp.tS with h1 | h1
    · rcases eq fp.zB fp.tB with h2 | h2
      · rcases eq fp.zH fp.tH with h3 | h3
        · exact absurd ⟨hD, h1, h2, h3⟩ h
        · exact .inr (.inr h3)
      · exact .inr (.inl h2)
    · exact .inl h1
  generalize min t.S (z.S - (z.S - 1) / t.S * t.S) = a at *
  generalize min t.B (z.B - (z.B - 1) / t.B * t.B) = b at *
  generalize min t.H (z.H - (z.H - 1) / t.H * t.H) = c at *
  have tS := fp.tS
  have tB := fp.tB
  have tH := fp.tH
  simp only [List.prod_cons, List.prod_nil, Nat.mul_one, ← Nat.mul_assoc]
  rcases key with k | k | k
  · calc a * a * b * c ≤ a * t.S * t.B * t.H := Nat.mul_le_mul (Nat.mul_le_mul (Nat.mul_le_mul le_rfl hS) hB) hH
      _ < t.S * t.S * t.B * t.H := by
        refine Nat.mul_lt_mul_of_pos_right (Nat.mul_lt_mul_of_pos_right (Nat.mul_lt_mul_of_pos_right k tS) tB) tH
  · calc a * a * b * c ≤ t.S * t.S * b * t.H := Nat.mul_le_mul (Nat.mul_le_mul (Nat.mul_le_mul hS hS) le_rfl) hH
      _ < t.S * t.S * t.B * t.H := Nat.mul_lt_mul_of_pos_right (Nat.mul_lt_mul_of_pos_left k (Nat.mul_pos tS tS)) tH
  · calc a * a * b * c ≤ t.S * t.S * t.B * c := Nat.mul_le_mul (Nat.mul_le_mul (Nat.mul_le_mul hS hS) hB) le_rfl
      _ < t.S * t.S * t.B * t.H := Nat.mul_lt_mul_of_pos_left k (Nat.mul_pos (Nat.mul_pos tS tS) tB)

theorem runAll_mem_exec {ts : List (Task α)} {s s' : Store α} (h : runAll ts s = .ok s') {u : Task α} (hu : u ∈ ts) : ∃ s1 s2, u.exec s1 = .ok s2 := by
  induction ts generalizing s with
  | nil => simp at hu
  | cons v ts ih =>
    rw [runAll, M.bind_eq_ok] at h
    obtain ⟨s1, e1, h⟩ := h
    rcases List.mem_cons.1 hu with rfl | hu
    · exact ⟨s, s1, e1⟩
    · exact ih h hu

theorem Task.exec_run {u : Task α} {s s' : Store α} (h : u.exec s = .ok s') : ∃ out, u.run (u.reads.map s) (u.writes.map s.view) = .ok out := by
  unfold Task.exec at h
  split at h
  · cases h
  · rw [M.bind_eq_ok] at h
    obtain ⟨out, h, -⟩ := h
    exact ⟨out, h⟩

/-- `flash_maxsumexp` accepts all tilings, but with uneven tiles it cannot be executed. -/
theorem flash_maxsumexp_uneven [FP α] {z t : AttnDims} (hD : t.D = z.D) (hu : ¬ FlashTiles z t) {Q K mask mse tmp : Tensor} (hQ : Q.IsHeads z t) (hK : K.IsHeads z t)
    (hM : mask.IsMask z t) (hm : mse.IsPairs z t) (hT : tmp.IsScores z t) (wQ : Q.WF) (asBool : α → Bool) (ninf : α) :
    (∃ ts, flashMaxsumexpAsync asBool ninf Q K mask mse tmp = .ok ts) ∧ ∀ s s', ¬ Exec (flashMaxsumexpAsync asBool ninf Q K mask mse tmp) s s' := by
  have fp := hQ.pos wQ
  have one : (z.D - 1) / t.D + 1 = 1 := by rw [hD, Nat.div_eq_of_lt (by have := fp.zD; omega)]
  have gQ : Q.grid = [1, (z.S - 1) / t.S + 1, (z.B - 1) / t.B + 1, (z.H - 1) / t.H + 1] := by rw [Tensor.grid, hQ.1, hQ.2]; simp only [gridOf, one]
  have gK : K.grid = [1, (z.S - 1) / t.S + 1, (z.B - 1) / t.B + 1, (z.H - 1) / t.H + 1] := by rw [Tensor.grid, hK.1, hK.2]; simp only [gridOf, one]
  have gm : mse.grid = [1, (z.S - 1) / t.S + 1, (z.B - 1) / t.B + 1, (z.H - 1) / t.H + 1] := by rw [Tensor.grid, hm.1, hm.2]; simp only [gridOf]
  have gM : mask.grid = [(z.S - 1) / t.S + 1, (z.S - 1) / t.S + 1] := by rw [Tensor.grid, hM.1, hM.2]; simp only [gridOf]
  have gT : tmp.grid = [(z.S - 1) / t.S + 1, (z.S - 1) / t.S + 1, (z.B - 1) / t.B + 1, (z.H - 1) / t.H + 1] := by rw [Tensor.grid, hT.1, hT.2]; simp only [gridOf]
  have e : flashMaxsumexpAsync asBool ninf Q K mask mse tmp = .ok ((List.range mse.ntiles).flatMap fun i => (List.range ((z.S - 1) / t.S + 1)).flatMap fun j =>
      [submitFlashMaxsumexp asBool ninf t.S z.D (t.B * t.H) (K.id, lin K.grid ((mse.tindex i).set 1 j)) (Q.id, lin Q.grid (mse.tindex i))
        (mask.id, lin mask.grid [j, (mse.tindex i).getD 1 0]) (mse.id, i) (tmp.tshape ((mse.tindex i).set 0 j)).prod]) := by
    simp only [flashMaxsumexpAsync, hQ.1, hQ.2]
    rw [vget_ok (by simp), M.bind_ok, vget_ok (by simp), M.bind_ok, vget_ok (by simp), M.bind_ok, vget_ok (by simp), M.bind_ok]
    refine forTasks_ok fun i hi => ?_
    have hin := mse.tindex_inBox i
    rw [Tensor.handleL_ok hi, M.bind_ok]
    generalize mse.tindex i = T at hin
    rw [gm] at hin
    obtain ⟨x, i', n, m, hx, hi', hn, hm', rfl⟩ := mem_box4 (mem_box.2 hin)
    obtain rfl : x = 0 := by omega
    have inQ : InBox Q.grid [0, i', n, m] := by rw [gQ]; exact hin
    rw [Tensor.handleAt_ok inQ, M.bind_ok, vget_ok (by simp), M.bind_ok, vget_ok (by rw [gK]; simp), M.bind_ok]
    have e1 : K.grid.getD 1 0 = (z.S - 1) / t.S + 1 := by rw [gK]; rfl
    rw [e1]
    refine forTasks_ok fun j hj => ?_
    have inK : InBox K.grid [0, j, n, m] := by rw [gK]; exact ⟨by decide, hj, hn, hm', trivial⟩
    have inM : InBox mask.grid [j, i'] := by rw [gM]; exact ⟨hj, hi', trivial⟩
    have inT : InBox tmp.grid [j, i', n, m] := by rw [gT]; exact ⟨hj, hi', hn, hm', trivial⟩
    simp only [List.set_cons_zero, List.set_cons_succ, List.getD_cons_succ, List.getD_cons_zero, scratchAt, Tensor.tshapeAt_ok inT, M.bind_ok, Tensor.handleAt_ok inK,
      Tensor.handleAt_ok inM]
  refine ⟨⟨_, e⟩, ?_⟩
  rintro s s' ⟨ts, e', r⟩
  rw [e] at e'
  cases e'
  -- the task for the last tile of queries and keys
  have inm : InBox mse.grid [0, (z.S - 1) / t.S, (z.B - 1) / t.B, (z.H - 1) / t.H] := by rw [gm]; exact ⟨by omega, by omega, by omega, by omega, trivial⟩
  have lt : lin mse.grid [0, (z.S - 1) / t.S, (z.B - 1) / t.B, (z.H - 1) / t.H] < mse.ntiles := lin_lt inm
  have ei := Tensor.tindex_lin inm
  generalize lin mse.grid [0, (z.S - 1) / t.S, (z.B - 1) / t.B, (z.H - 1) / t.H] = i at lt ei
  obtain ⟨s1, s2, h⟩ := runAll_mem_exec r (List.mem_map.2 ⟨_, List.mem_flatMap.2 ⟨i, List.mem_range.2 lt,
    List.mem_flatMap.2 ⟨(z.S - 1) / t.S, List.mem_range.2 (Nat.lt_succ_self _), List.mem_singleton.2 rfl⟩⟩, rfl⟩)
  rw [ei] at h
  simp only [List.set_cons_zero, List.set_cons_succ, List.getD_cons_succ, List.getD_cons_zero] at h
  have sh : tmp.tshape [(z.S - 1) / t.S, (z.S - 1) / t.S, (z.B - 1) / t.B, (z.H - 1) / t.H] = [min t.S (z.S - (z.S - 1) / t.S * t.S), min t.S (z.S - (z.S - 1) / t.S * t.S),
      min t.B (z.B - (z.B - 1) / t.B * t.B), min t.H (z.H - (z.H - 1) / t.H * t.H)] := by
    rw [Tensor.tshape, hT.1, hT.2]
    simp only [tileShape]
  have small := uneven_prod fp hD hu
  rw [← sh] at small
  generalize (tmp.tshape [(z.S - 1) / t.S, (z.S - 1) / t.S, (z.B - 1) / t.B, (z.H - 1) / t.H]).prod = n at small h
  obtain ⟨bs, h⟩ := Task.exec_run h
  simp only [Task1.toTask, submitFlashMaxsumexp, List.map_cons, List.map_nil] at h
  rw [M.bind_eq_ok] at h
  obtain ⟨b, h, -⟩ := h
  simp only [flashMaxsumexpKernel, flashScores, bind_assoc] at h
  rw [M.bind_eq_ok] at h
  obtain ⟨C', h, -⟩ := h
  have := gemmKernel_size fp.tS fp.tS (Nat.mul_pos fp.tB fp.tH) h
  simp only [Buf.undef] at this
  omega

end NNTile
