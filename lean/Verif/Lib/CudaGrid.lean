import Verif.Lib.CudaMore
/-! CUDA kernels with a three-dimensional grid. -/
namespace NNTile
variable {α : Type} [FP α]

theorem idx3_inj {m k a b c a' b' c' : Nat} (hb : b < m) (hb' : b' < m) (hc : c < k) (hc' : c' < k) (h : (a*k + c)*m + b = (a'*k + c')*m + b') : a = a' ∧ b = b' ∧ c = c' := by
  have h1 : b = b' := by
    have := congrArg (· % m) h
    simpa [Nat.add_mod, Nat.mod_eq_of_lt hb, Nat.mod_eq_of_lt hb'] using this
  have hm : 0 < m := by omega
  have h2 : a*k + c = a'*k + c' := Nat.eq_of_mul_eq_mul_right hm (by omega)
  have h3 : c = c' := by
    have := congrArg (· % k) h2
    simpa [Nat.add_mod, Nat.mod_eq_of_lt hc, Nat.mod_eq_of_lt hc'] using this
  have hk : 0 < k := by omega
  exact ⟨Nat.eq_of_mul_eq_mul_right hk (by omega), h1, h3⟩

theorem idx3_slice (m k a b c : Nat) : a*(m*k) + b + c*m = (a*k + c)*m + b := by
  rw [Nat.add_mul, Nat.mul_assoc, Nat.mul_comm k m]; omega

theorem prod3_nodup (a b c : Nat) : ((List.range a).product ((List.range b).product (List.range c))).Nodup :=
  List.Nodup.product List.nodup_range (List.Nodup.product List.nodup_range List.nodup_range)

theorem mem_prod3 {a b c : Nat} {p : Nat × Nat × Nat} : p ∈ (List.range a).product ((List.range b).product (List.range c)) ↔ p.1 < a ∧ p.2.1 < b ∧ p.2.2 < c := by
  obtain ⟨x, y, z⟩ := p
  simp [List.product]

/-- Kernels over slices: thread `(i1, i2, i0)` owns element `(i2*k+i0)*m+i1` of the output. -/
theorem slice_gives {m n k tx ty tz : Nat} (hg : Grid3Ok m n k tx ty tz) (body : Nat → Nat → Nat → PM α Unit) (srcs : List (Buf α)) (dst : Buf α)
    (step : Nat → Nat → Nat → Buf α → M (Buf α))
    (hfoot : ∀ g : Launch α, ∀ i0 i1 i2, i0 < m → i1 < n → i2 < k → ((body i0 i1 i2).prog).Foot (g.mem (taskBufs dst srcs)) (fun l => l.1 = .glob 0 ∧ l.2 = i1*(m*k) + i0 + i2*m) (fun l => ∃ b, l.1 = .glob (b+1)) (fun l => l.1 = .glob 0 ∧ False))
    (hrun : ∀ g : Launch α, ∀ i0 i1 i2, i0 < m → i1 < n → i2 < k → ∀ d d', step i1 i0 i2 d = .ok d' → ((body i0 i1 i2).prog).run (g.mem (taskBufs d srcs)) = .ok (g.mem (taskBufs d' srcs)))
    {dst' : Buf α} (h : forN n (fun i2 d => forN m (fun i1 d => forN k (fun i0 d => step i2 i1 i0 d) d) d) dst = .ok dst') :
    ∃ g, grid3Launch m n k tx ty tz body = .ok g ∧ g.Gives srcs dst dst' := by
  rw [forN3_items] at h
  refine grid3_gives hg body srcs dst _ (prod3_nodup _ _ _) (fun p => (p.2.1, p.1, p.2.2)) ?_ ?_ ?_ (fun p x => x = p.1*(m*k) + p.2.1 + p.2.2*m) ?_ _ ?_ ?_ h
  · rintro ⟨a, b, c⟩ _ ⟨a', b', c'⟩ _ e
    simp only [Prod.mk.injEq] at e ⊢
    omega
  · intro p hp
    have := mem_prod3.1 hp
    exact ⟨this.2.1, this.1, this.2.2⟩
  · intro i0 i1 i2 h0 h1 h2
    exact ⟨(i1, i0, i2), mem_prod3.2 ⟨h1, h0, h2⟩, rfl⟩
  · intro p hp q hq hpq x hx hy
    have hp := mem_prod3.1 hp
    have hq := mem_prod3.1 hq
    rw [hx, idx3_slice, idx3_slice] at hy
    obtain ⟨e1, e2, e3⟩ := idx3_inj hp.2.1 hq.2.1 hp.2.2 hq.2.2 hy
    exact hpq (Prod.ext e1 (Prod.ext e2 e3))
  · intro g p hp
    have hp := mem_prod3.1 hp
    exact hfoot g _ _ _ hp.2.1 hp.1 hp.2.2
  · intro g p hp
    have hp := mem_prod3.1 hp
    exact hrun g _ _ _ hp.2.1 hp.1 hp.2.2

/-- Kernels over fibers: thread `(i0, i1, i2)` owns element `(i1*k+i2)*m+i0` of the output. -/
theorem fiber_gives {m n k tx ty tz : Nat} (hg : Grid3Ok m n k tx ty tz) (body : Nat → Nat → Nat → PM α Unit) (srcs : List (Buf α)) (dst : Buf α)
    (step : Nat → Nat → Nat → Buf α → M (Buf α))
    (hfoot : ∀ g : Launch α, ∀ i0 i1 i2, i0 < m → i1 < n → i2 < k → ((body i0 i1 i2).prog).Foot (g.mem (taskBufs dst srcs)) (fun l => l.1 = .glob 0 ∧ l.2 = (i1*k + i2)*m + i0) (fun l => ∃ b, l.1 = .glob (b+1)) (fun l => l.1 = .glob 0 ∧ False))
    (hrun : ∀ g : Launch α, ∀ i0 i1 i2, i0 < m → i1 < n → i2 < k → ∀ d d', step i2 i1 i0 d = .ok d' → ((body i0 i1 i2).prog).run (g.mem (taskBufs d srcs)) = .ok (g.mem (taskBufs d' srcs)))
    {dst' : Buf α} (h : forN k (fun i2 d => forN n (fun i1 d => forN m (fun i0 d => step i2 i1 i0 d) d) d) dst = .ok dst') :
    ∃ g, grid3Launch m n k tx ty tz body = .ok g ∧ g.Gives srcs dst dst' := by
  rw [forN3_items] at h
  refine grid3_gives hg body srcs dst _ (prod3_nodup _ _ _) (fun p => (p.2.2, p.2.1, p.1)) ?_ ?_ ?_ (fun p x => x = (p.2.1*k + p.1)*m + p.2.2) ?_ _ ?_ ?_ h
  · rintro ⟨a, b, c⟩ _ ⟨a', b', c'⟩ _ e
    simp only [Prod.mk.injEq] at e ⊢
    omega
  · intro p hp
    have := mem_prod3.1 hp
    exact ⟨this.2.2, this.2.1, this.1⟩
  · intro i0 i1 i2 h0 h1 h2
    exact ⟨(i2, i1, i0), mem_prod3.2 ⟨h2, h1, h0⟩, rfl⟩
  · intro p hp q hq hpq x hx hy
    have hp := mem_prod3.1 hp
    have hq := mem_prod3.1 hq
    rw [hx] at hy
    obtain ⟨e1, e2, e3⟩ := idx3_inj hp.2.2 hq.2.2 hp.1 hq.1 hy
    exact hpq (Prod.ext e3 (Prod.ext e1 e2))
  · intro g p hp
    have hp := mem_prod3.1 hp
    exact hfoot g _ _ _ hp.2.2 hp.2.1 hp.1
  · intro g p hp
    have hp := mem_prod3.1 hp
    exact hrun g _ _ _ hp.2.2 hp.2.1 hp.1

macro "grid_foot" : tactic => `(tactic| (intro g i0 i1 i2 _ _ _; generalize Launch.mem g _ = m0; simp only [PM.prog, ld, st, bind, pure, ite_apply, Prog.Foot] <;> grind [Prog.Foot]))
macro "grid_run" : tactic => `(tactic| (
  intro g i0 i1 i2 _ _ _ d d' h
  try simp only [M.bind_eq_ok] at h
  simp only [PM.prog, bind, pure, run_ld_dst, run_ld_src, run_st, ite_apply, List.getD_cons_zero, List.getD_cons_succ]
  grind [Except.bind, Prog.run, run_ld_dst, run_ld_src, run_st]))

theorem addSliceCuda_gives {m n k : Nat} (hg : Grid3Ok m n k 8 8 16) {alpha beta : α} {src dst dst' : Buf α} (h : addSliceKernel m n k alpha src beta dst = .ok dst') :
    ∃ g, addSliceCuda m n k alpha beta = .ok g ∧ g.Gives [src] dst dst' := by
  unfold addSliceKernel at h
  unfold addSliceCuda
  refine slice_gives hg _ _ _ (fun i2 i1 i0 d => do
    let x ← src.rd (i2*m + i1)
    if FP.eqb beta 0 then d.wr (i2*(m*k) + i1 + i0*m) (alpha * x) else do
      let y ← d.rd (i2*(m*k) + i1 + i0*m)
      d.wr (i2*(m*k) + i1 + i0*m) (beta * y + alpha * x)) ?_ ?_ (forN_mono (fun i2 _ s s' hs => forN_mono (fun i1 _ s s' hs => ?_) hs) h)
  · grid_foot
  · intro g i0 i1 i2 _ _ _ d d' h
    obtain ⟨x, hx, h⟩ := M.bind_eq_ok.1 h
    simp only [PM.prog, bind, pure, run_ld_src, ite_apply, List.getD_cons_zero, hx, Except.bind]
    cases hb : FP.eqb beta 0 <;> simp only [hb, Bool.false_eq_true, if_false, if_true] at h ⊢
    · obtain ⟨y, hy, h⟩ := M.bind_eq_ok.1 h
      simp only [run_ld_dst, run_ld_src, run_st, List.getD_cons_zero, List.getD_cons_succ, hy, h, Except.bind, Prog.run]
    · simp only [run_st, h, Except.bind, Prog.run]
  · obtain ⟨x, hx, hs⟩ := M.bind_eq_ok.1 hs
    simp only [hx, M.bind_ok]
    cases hb : FP.eqb beta 0 <;> simp only [hb, Bool.false_eq_true, if_false, if_true] at hs ⊢ <;> exact hs

theorem addSlice3Cuda_gives {m n k : Nat} (hg : Grid3Ok m n k 8 8 16) {alpha beta : α} {src1 src2 dst dst' : Buf α} (h : addSlice3Kernel m n k alpha src1 beta src2 dst = .ok dst') :
    ∃ g, addSlice3Cuda m n k alpha beta = .ok g ∧ g.Gives [src1, src2] dst dst' := by
  unfold addSlice3Kernel at h
  unfold addSlice3Cuda
  refine slice_gives hg _ _ _ (fun i2 i1 i0 d => do
    let x ← src1.rd (i2*m + i1)
    if FP.eqb beta 0 then d.wr (i2*(m*k) + i1 + i0*m) (alpha * x) else do
      let y ← src2.rd (i2*(m*k) + i1 + i0*m)
      d.wr (i2*(m*k) + i1 + i0*m) (beta * y + alpha * x)) ?_ ?_ (forN_mono (fun i2 _ s s' hs => forN_mono (fun i1 _ s s' hs => ?_) hs) h)
  · grid_foot
  · intro g i0 i1 i2 _ _ _ d d' h
    obtain ⟨x, hx, h⟩ := M.bind_eq_ok.1 h
    simp only [PM.prog, bind, pure, run_ld_src, ite_apply, List.getD_cons_zero, hx, Except.bind]
    cases hb : FP.eqb beta 0 <;> simp only [hb, Bool.false_eq_true, if_false, if_true] at h ⊢
    · obtain ⟨y, hy, h⟩ := M.bind_eq_ok.1 h
      simp only [run_ld_dst, run_ld_src, run_st, List.getD_cons_zero, List.getD_cons_succ, hy, h, Except.bind, Prog.run]
    · simp only [run_st, h, Except.bind, Prog.run]
  · obtain ⟨x, hx, hs⟩ := M.bind_eq_ok.1 hs
    simp only [hx, M.bind_ok]
    cases hb : FP.eqb beta 0 <;> simp only [hb, Bool.false_eq_true, if_false, if_true] at hs ⊢ <;> exact hs

theorem prodSliceCuda_gives {m n k : Nat} (hg : Grid3Ok m n k 8 8 16) {alpha : α} {src dst dst' : Buf α} (h : prodSliceKernel m n k alpha src dst = .ok dst') :
    ∃ g, prodSliceCuda m n k alpha = .ok g ∧ g.Gives [src] dst dst' := by
  unfold prodSliceKernel at h
  unfold prodSliceCuda
  refine slice_gives hg _ _ _ (fun i2 i1 i0 d => do
    let x ← src.rd (i2*m + i1)
    let y ← d.rd (i2*(m*k) + i1 + i0*m)
    d.wr (i2*(m*k) + i1 + i0*m) (y * (alpha * x))) ?_ ?_ (forN_mono (fun i2 _ s s' hs => forN_mono (fun i1 _ s s' hs => ?_) hs) h)
  · grid_foot
  · grid_run
  · obtain ⟨x, hx, hs⟩ := M.bind_eq_ok.1 hs
    simp only [hx, M.bind_ok]
    exact hs

theorem prodFiberCuda_gives {m n k : Nat} (hg : Grid3Ok m n k 8 8 16) {alpha : α} {src dst dst' : Buf α} (h : prodFiberKernel m n k alpha src dst = .ok dst') :
    ∃ g, prodFiberCuda m n k alpha = .ok g ∧ g.Gives [src] dst dst' := by
  unfold prodFiberKernel at h
  unfold prodFiberCuda
  refine fiber_gives hg _ _ _ (fun i2 i1 i0 d => do
    let x ← src.rd i2
    let y ← d.rd ((i1*k + i2)*m + i0)
    d.wr ((i1*k + i2)*m + i0) (y * (alpha * x))) ?_ ?_ (forN_mono (fun i2 _ s s' hs => ?_) h)
  · grid_foot
  · grid_run
  · obtain ⟨x, hx, hs⟩ := M.bind_eq_ok.1 hs
    simp only [hx, M.bind_ok]
    exact hs

theorem prodFiber3Cuda_gives {m n k : Nat} (hg : Grid3Ok m n k 8 8 16) {alpha : α} {src1 src2 dst dst' : Buf α} (h : prodFiber3Kernel m n k alpha src1 src2 dst = .ok dst') :
    ∃ g, prodFiber3Cuda m n k alpha = .ok g ∧ g.Gives [src1, src2] dst dst' := by
  unfold prodFiber3Kernel at h
  unfold prodFiber3Cuda
  refine fiber_gives hg _ _ _ (fun i2 i1 i0 d => do
    let x ← src1.rd i2
    let y ← src2.rd ((i1*k + i2)*m + i0)
    d.wr ((i1*k + i2)*m + i0) (alpha * x * y)) ?_ ?_ (forN_mono (fun i2 _ s s' hs => ?_) h)
  · grid_foot
  · grid_run
  · obtain ⟨x, hx, hs⟩ := M.bind_eq_ok.1 hs
    simp only [hx, M.bind_ok]
    exact hs

end NNTile
