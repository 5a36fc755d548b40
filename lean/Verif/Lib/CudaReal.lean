import Verif.Lib.CudaRest
/-! CUDA kernels that agree with the CPU kernels in exact arithmetic. -/
namespace NNTile
variable {α : Type} [FP α]

theorem run_atomicAdd_dst {g : Launch α} {d : Buf α} {srcs : List (Buf α)} (i : Nat) (v : α) (k : Prog α) :
    (Prog.atomicAdd (.glob 0, i) v k).run (g.mem (taskBufs d srcs)) = (d.rd i).bind fun x => (d.wr i (x + v)).bind fun d' => k.run (g.mem (taskBufs d' srcs)) := by
  change ((g.mem (taskBufs d srcs)).rd (.glob 0, i)).bind _ = _
  rw [mem_rd_dst]
  cases d.rd i with
  | error e => rfl
  | ok x =>
    change ((g.mem (taskBufs d srcs)).wr (.glob 0, i) (x + v)).bind _ = (d.wr i (x + v)).bind _
    rw [mem_wr_dst]
    cases d.wr i (x + v) <;> rfl

/-- `embedding_backward` adds by atomic operations: if the order of additions does not matter then the result is that of the CPU kernel. -/
theorem embeddingBackwardCuda_gives {asIdx : α → Int} {m n k k_start k_size : Nat} (hcomm : ∀ a b c : α, a + b + c = a + c + b) (hm : m < 2^16) (hn : n < 2^16) (hk : k_size ≤ 2^31)
    {index embed dst dst' : Buf α} (h : embeddingBackwardKernel asIdx m n k k_start k_size index embed dst = .ok dst') :
    (embeddingBackwardCuda asIdx m n k k_start k_size).Gives [index, embed] dst dst' := by
  unfold embeddingBackwardKernel at h
  have hs : ∀ i2 i1 i0, ((i2*k + k_start)*m + i1 + i0*m) = (i2*k + k_start + i0)*m + i1 := by
    intro i2 i1 i0
    rw [Nat.add_mul _ i0]; omega
  let step : Nat → Nat → Nat → Buf α → M (Buf α) := fun i2 i1 i0 d => do
    let token ← index.rd (i2*m + i1)
    let o ← tokenOff k_size (asIdx token) i0
    let v ← d.rd o
    let e ← embed.rd ((i2*k + k_start + i0)*m + i1)
    d.wr o (v + e)
  have h : forN n (fun i2 d => forN m (fun i1 d => forN k_size (fun i0 d => step i2 i1 i0 d) d) d) dst = .ok dst' := by
    refine forN_mono (fun i2 _ s s' hs' => forN_mono (fun i1 _ s s' hs' => ?_) hs') h
    obtain ⟨x, hx, hs'⟩ := M.bind_eq_ok.1 hs'
    simp only [step, hx, M.bind_ok]
    simp only [hs] at hs'
    exact hs'
  rw [forN3_items] at h
  have hall := runItems_all h
  have htok : ∀ i2 i1 i0, i2 < n → i1 < m → i0 < k_size → ∀ t, index.rd (i2*m + i1) = .ok t → ¬ asIdx t < 0 := by
    intro i2 i1 i0 h2 h1 h0 t ht
    obtain ⟨a, b, hab⟩ := hall (i2, i1, i0) (mem_prod3.2 ⟨h2, h1, h0⟩)
    simp only [step, ht, M.bind_ok] at hab
    obtain ⟨o, ho, _⟩ := M.bind_eq_ok.1 hab
    unfold tokenOff at ho
    split at ho
    · cases ho
    · assumption
  have hu1 : uint32 (((k_size + 255) / 256 : Nat) : Int) = (k_size + 255) / 256 := uint32_eq (by omega)
  have hu2 : uint32 (m : Int) = m := uint32_eq (by omega)
  have hu3 : uint32 (n : Int) = n := uint32_eq (by omega)
  have hstart : ∀ p ∈ (List.range n).product ((List.range m).product (List.range k_size)),
      (embeddingBackwardCuda asIdx m n k k_start k_size).start ⟨⟨p.2.2 / 256, p.2.1, p.1⟩, ⟨p.2.2 % 256, 0, 0⟩⟩ = PM.prog (do
        let token ← ld 1 (p.1*m + p.2.1)
        let e ← ld 2 ((p.1*k + k_start + p.2.2)*m + p.2.1)
        if asIdx token < 0 then fun _ => .ub
        else fun k => .atomicAdd (.glob 0, k_size * (asIdx token).toNat + p.2.2) e (k ())) := by
    intro p hp
    have hp := mem_prod3.1 hp
    have hv : (embeddingBackwardCuda asIdx m n k k_start k_size).Valid := by
      simp only [Launch.Valid, embeddingBackwardCuda, hu1, hu2, hu3]
      omega
    have hh : (embeddingBackwardCuda asIdx m n k k_start k_size).Has ⟨⟨p.2.2 / 256, p.2.1, p.1⟩, ⟨p.2.2 % 256, 0, 0⟩⟩ := by
      simp only [Launch.Has, embeddingBackwardCuda, hu1, hu2, hu3]
      omega
    unfold Launch.start
    rw [if_pos ⟨hv, hh⟩]
    simp only [embeddingBackwardCuda]
    rw [gidIndex_eq (by omega), show p.2.2 % 256 + p.2.2 / 256 * 256 = p.2.2 by omega, if_pos hp.2.2]
  refine Launch.gives_of_items _ [index, embed] dst _ (prod3_nodup _ _ _) (fun p => ⟨⟨p.2.2 / 256, p.2.1, p.1⟩, ⟨p.2.2 % 256, 0, 0⟩⟩) ?_ ?_ (fun _ _ => False)
    (fun _ => True) (fun _ _ _ _ _ _ h => h.elim) (fun _ _ _ h => h.elim) (fun _ _ => hcomm) ?_ _ ?_ h
  · rintro ⟨a, b, c⟩ _ ⟨a', b', c'⟩ _ e
    simp only [Tid.mk.injEq, Dim3.mk.injEq] at e
    simp only [Prod.mk.injEq]
    omega
  · intro t ht
    unfold Launch.start
    split
    swap
    · rfl
    next hh =>
    obtain ⟨_, hh⟩ := hh
    simp only [Launch.Has, embeddingBackwardCuda, hu1, hu2, hu3] at hh
    simp only [embeddingBackwardCuda]
    rw [gidIndex_eq (by omega), if_neg]
    intro c1
    refine ht (t.blk.z, t.blk.y, t.thr.x + t.blk.x * 256) (mem_prod3.2 ⟨hh.2.2.1, hh.2.1, c1⟩) ?_
    obtain ⟨⟨b1, b2, b3⟩, ⟨t1, t2, t3⟩⟩ := t
    simp only at hh
    obtain rfl : t2 = 0 := by omega
    obtain rfl : t3 = 0 := by omega
    simp only [(tid_eta hh.2.2.2.1).1, (tid_eta hh.2.2.2.1).2]
  · intro p hp
    rw [hstart p hp]
    have hp := mem_prod3.1 hp
    simp only [PM.prog, bind]
    refine Or.inr ⟨⟨0, rfl⟩, fun t ht => Or.inr ⟨⟨1, rfl⟩, fun e _ => ?_⟩⟩
    simp only [ite_apply, if_neg (htok _ _ _ hp.1 hp.2.1 hp.2.2 t ht)]
    exact ⟨Or.inr ⟨rfl, trivial⟩, trivial⟩
  · intro p hp d d' h
    rw [hstart p hp]
    simp only [step] at h
    obtain ⟨t, ht, h⟩ := M.bind_eq_ok.1 h
    obtain ⟨o, ho, h⟩ := M.bind_eq_ok.1 h
    unfold tokenOff at ho
    split at ho
    · cases ho
    next hn =>
    cases ho
    obtain ⟨v, hv, h⟩ := M.bind_eq_ok.1 h
    obtain ⟨e, he, h⟩ := M.bind_eq_ok.1 h
    simp only [PM.prog, bind, run_ld_src, List.getD_cons_zero, List.getD_cons_succ, ht, he, Except.bind, ite_apply, if_neg hn, run_atomicAdd_dst, hv, h]
    rfl

theorem Buf.wr_self {b : Buf α} {i : Nat} {v : α} (h : b.rd i = .ok v) : b.wr i v = .ok b := by
  unfold Buf.rd at h
  split at h
  swap
  · cases h
  next hi =>
  split at h
  swap
  · cases h
  next hd =>
  cases h
  unfold Buf.wr
  rw [if_pos hi]
  congr 1
  cases b
  simp only [Buf.mk.injEq, true_and]
  funext j
  split
  · subst_vars; exact hd.symm
  · rfl

theorem wr_then {b b1 : Buf α} {i : Nat} {v w : α} (h : b.wr i v = .ok b1) : b1.wr i w = b.wr i w := by
  obtain ⟨b2, h2⟩ := Buf.wr_any h w
  rw [h2]
  exact Buf.wr_wr_same h2 h

/-- `total_sum_accum` adds by atomic operations, in exact arithmetic the result is that of the CPU kernel. -/
theorem totalSumAccumCuda_gives {asIdx : ℝ → Int} {alpha : ℝ} {n_labels n : Nat} (hn : n ≤ 2^31) {lse src labels dst dst' : Buf ℝ}
    (h : totalSumAccumKernel asIdx alpha n_labels n lse src labels dst = .ok dst') : (totalSumAccumCuda asIdx alpha n_labels n).Gives [lse, src, labels] dst dst' := by
  unfold totalSumAccumKernel at h
  let step : Nat → Buf ℝ → M (Buf ℝ) := fun i d => do
    let l ← lse.rd i
    let label ← labels.rd i
    let o ← labelOff n_labels (asIdx label) i
    let y ← src.rd o
    let v ← d.rd 0
    d.wr 0 (v + alpha * (l - y))
  have h : forN n step dst = .ok dst' := by
    obtain ⟨p, hp, h⟩ := M.bind_eq_ok.1 h
    obtain ⟨v, hv, h⟩ := M.bind_eq_ok.1 h
    have key : ∀ n p, forN n (fun i (p : ℝ × ℝ) => do
        let x ← lse.rd i
        let p := kahan x p
        let label ← labels.rd i
        let o ← labelOff n_labels (asIdx label) i
        let y ← src.rd o
        .ok (kahan (- y) p)) ((0 : ℝ), (0 : ℝ)) = .ok p → p.2 = 0 ∧ forN n step dst = dst.wr 0 (v + alpha * p.1) := by
      intro n
      induction n with
      | zero =>
        intro p hp
        cases hp
        refine ⟨rfl, ?_⟩
        simp only [mul_zero, add_zero]
        rw [Buf.wr_self hv]; rfl
      | succ n ih =>
        intro p hp
        rw [forN_succ] at hp
        obtain ⟨q, hq, hp⟩ := M.bind_eq_ok.1 hp
        obtain ⟨hq2, ih⟩ := ih q hq
        obtain ⟨x, hx, hp⟩ := M.bind_eq_ok.1 hp
        obtain ⟨label, hl, hp⟩ := M.bind_eq_ok.1 hp
        obtain ⟨o, ho, hp⟩ := M.bind_eq_ok.1 hp
        obtain ⟨y, hy, hp⟩ := M.bind_eq_ok.1 hp
        obtain ⟨q1, q2⟩ := q
        simp only at hq2
        subst hq2
        rw [kahan_real, kahan_real] at hp
        cases hp
        refine ⟨rfl, ?_⟩
        rw [forN_succ, ih]
        obtain ⟨d1, hd1⟩ := Buf.wr_any (Buf.wr_self hv) (v + alpha * q1)
        rw [hd1, M.bind_ok]
        simp only [step, hx, hl, ho, hy, M.bind_ok, Buf.rd_wr_eq hd1]
        rw [wr_then hd1]
        congr 1
        ring
    obtain ⟨h2, hk⟩ := key n p hp
    rw [hk, ← h, h2]
    congr 1
    ring
  unfold totalSumAccumCuda
  have hall := runItems_all (by rw [← forN_items]; exact h)
  refine ewLaunch_gives (by decide) (by decide) (by decide) hn _ _ dst (fun _ _ => False) (fun _ => True) (fun _ _ _ _ _ _ h => h.elim) (fun _ _ h => h.elim)
    (fun _ _ a b c => by ring) _ ?_ ?_ h
  · intro i hi
    simp only [PM.prog, bind]
    refine Or.inr ⟨⟨0, rfl⟩, fun l _ => Or.inr ⟨⟨2, rfl⟩, fun w hw => ?_⟩⟩
    have hw : labels.rd i = .ok w := hw
    obtain ⟨a, b, hab⟩ := hall i (List.mem_range.2 hi)
    simp only [step, hw, M.bind_ok] at hab
    obtain ⟨_, _, hab⟩ := M.bind_eq_ok.1 hab
    obtain ⟨o, ho, _⟩ := M.bind_eq_ok.1 hab
    unfold labelOff at ho
    split at ho
    · cases ho
    next hc =>
    simp only [labelAt, if_neg hc]
    exact Or.inr ⟨⟨1, rfl⟩, fun _ _ => ⟨Or.inr ⟨rfl, trivial⟩, trivial⟩⟩
  · intro i hi d d' h
    simp only [step] at h
    obtain ⟨l, hl, h⟩ := M.bind_eq_ok.1 h
    obtain ⟨w, hw, h⟩ := M.bind_eq_ok.1 h
    obtain ⟨o, ho, h⟩ := M.bind_eq_ok.1 h
    unfold labelOff at ho
    split at ho
    · cases ho
    next hc =>
    cases ho
    obtain ⟨y, hy, h⟩ := M.bind_eq_ok.1 h
    obtain ⟨v, hv, h⟩ := M.bind_eq_ok.1 h
    simp only [PM.prog, bind, run_ld_src, List.getD_cons_zero, List.getD_cons_succ, hl, hw, Except.bind, labelAt, if_neg hc, run_atomicAdd_dst, hy, hv, h]
    rfl

/-- `maximum`: the arguments of `fmax` are swapped on the device. -/
theorem maximumCuda_gives {n : Nat} (hn : n ≤ 2^31) {src dst dst' : Buf ℝ} (h : maximumKernel n src dst = .ok dst') : (maximumCuda n : Launch ℝ).Gives [src] dst dst' := by
  unfold maximumKernel at h
  simp only [fmax_real] at h
  unfold maximumCuda
  refine ew_gives hn _ _ _ _ ?_ ?_ h
  · cuda_foot
  · intro g i _ d d' h
    obtain ⟨x, hx, h⟩ := M.bind_eq_ok.1 h
    obtain ⟨y, hy, h⟩ := M.bind_eq_ok.1 h
    rw [max_comm] at h
    simp only [PM.prog, bind, run_ld_dst, run_ld_src, run_st, List.getD_cons_zero, hx, hy, Except.bind, fmax_real, h, Prog.run]

/-- `gelutanh`: the CPU kernel compensates the rounding of a sum, the device does not. -/
theorem gelutanhCuda_gives {n : Nat} (hn : n ≤ 2^31) {src dst dst' : Buf ℝ} (h : gelutanhKernel n src dst = .ok dst') : (gelutanhCuda n : Launch ℝ).Gives [src] dst dst' := by
  unfold gelutanhKernel at h
  unfold gelutanhCuda
  refine ew_gives hn _ _ _ _ ?_ ?_ h
  · cuda_foot
  · intro g i _ d d' h
    obtain ⟨x, hx, h⟩ := M.bind_eq_ok.1 h
    have e : x / (1 + FP.exp (gtF4 * x * x - (gtF3 + gtF4 * x * x - gtF3)) * FP.exp ((gtF3 + gtF4 * x * x) * x)) = x / (1 + FP.exp (x * ((gtF3 : ℝ) + gtF4 * x * x))) := by
      have e1 : gtF4 * x * x - (gtF3 + gtF4 * x * x - gtF3) = 0 := by ring
      rw [e1, show FP.exp (0 : ℝ) = 1 from Real.exp_zero, one_mul, mul_comm x (gtF3 + gtF4 * x * x)]
    simp only at h
    have e2 : (gtF4 * x * x - (gtF3 + gtF4 * x * x - gtF3)) * x = gtF4 * x * x - (gtF3 + gtF4 * x * x - gtF3) := by ring
    rw [e2, e] at h
    simp only [PM.prog, bind, run_ld_src, run_st, List.getD_cons_zero, hx, Except.bind, cudaF3_eq, cudaF4_eq, h, Prog.run]

/-- `pow`: the CPU kernel divides if the exponent is `-1`. -/
theorem powCuda_gives_real {n : Nat} {alpha exp : ℝ} {dst dst' : Buf ℝ} (h : powKernel n alpha exp dst = .ok dst') : (powCuda n alpha exp).Gives [] dst dst' := by
  unfold powKernel at h
  have hp : ∀ z, FP.eqb exp (-1) = true → alpha / z = alpha * FP.pow z exp := by
    intro z he
    rw [(eqb_real _ _).1 he]
    rw [show FP.pow z (-1) = z ^ (-1 : ℝ) from rfl, Real.rpow_neg_one]
    rfl
  refine stride1_gives (bx := 256) (gx := 256) (by omega) (by omega) (by omega) (by omega) n (fun i => do
      let z ← ld 0 i
      st 0 i (alpha * FP.pow z exp)) (powCuda n alpha exp) rfl rfl ?_ [] dst (fun i x => x = i) (fun i j x hij h1 h2 => hij (h1.symm.trans h2)) ?_ ?_ _ ?_ h
  · intro t ht
    simp only [Launch.Has, powCuda] at ht
    simp only [powCuda]
    rw [gidInt_eq (by omega)]
    rfl
  · intro i
    exact den_bind (den_ld _ _) fun _ => den_st _ _ _
  · intro g i _ own' hown k hk
    exact Or.inl ⟨hown _ ⟨rfl, rfl⟩, fun v => ⟨hown _ ⟨rfl, rfl⟩, hk⟩⟩
  · intro g i _ d d' h
    obtain ⟨z, hz, h⟩ := M.bind_eq_ok.1 h
    have h : d.wr i (alpha * FP.pow z exp) = .ok d' := by
      cases he : FP.eqb exp (-1)
      · simpa only [he, Bool.false_eq_true, if_false] using h
      · simp only [he, if_true] at h
        rw [← hp z he]; exact h
    simp only [PM.prog, bind, run_ld_dst, run_st, hz, h, Except.bind, Prog.run]

end NNTile
