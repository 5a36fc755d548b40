import Verif.Lib.CudaSoftmax
import Verif.Lib.Maxsumexp
/-! `maxsumexp` on GPU. -/
namespace NNTile
open Finset

theorem XReal.add_right_comm' (x v w : XReal) : x + v + w = x + w + v := by
  cases x <;> cases v <;> cases w <;> first | rfl | (simp only [XReal.fin_add]; congr 1; ring)

theorem XReal.ltb_irrefl (a : XReal) : FP.ltb a a = false := by
  cases a with
  | fin a => change decide _ = false; simp
  | _ => rfl

theorem XReal.ltb_trans {a b c : XReal} (h : FP.ltb a b = true) (h' : FP.ltb b c = true) : FP.ltb a c = true := by
  cases a <;> cases b <;> cases c <;> first | rfl | (exact absurd h (by decide)) | (exact absurd h' (by decide)) | (cases h; done) | (cases h'; done) | (rw [XReal.ltb_fin] at *; exact lt_trans h h')

noncomputable section

/-- `p` stands for entries with sum of exponents `w`. -/
def CRep (p : XReal × XReal) (w : ℝ) : Prop := (p = (.ninf, .fin 1) ∧ w = 0) ∨ ∃ a s, p = (.fin a, .fin s) ∧ 0 < s ∧ s * Real.exp a = w

theorem CRep.step {p : XReal × XReal} {w : ℝ} (h : CRep p w) {v : XReal} (hv : v.NumOrMask) : CRep (mseCudaStep v p) (w + expWeight 0 v) := by
  rcases hv with rfl | ⟨b, rfl⟩
  · simp only [mseCudaStep, XReal.isInf_ninf, if_true, expWeight, add_zero]; exact h
  · rcases h with ⟨rfl, rfl⟩ | ⟨a, s, rfl, hs, rfl⟩
    · simp only [mseCudaStep, XReal.isInf_fin, XReal.ltb_ninf, if_true, XReal.ninf_sub, XReal.exp_ninf, XReal.one_def, XReal.fin_mul, XReal.fin_add, Bool.false_eq_true, if_false]
      exact Or.inr ⟨b, 1, by simp, by norm_num, by simp [expWeight]⟩
    · by_cases hlt : a < b
      · simp only [mseCudaStep, XReal.isInf_fin, (XReal.ltb_fin a b).2 hlt, if_true, XReal.exp_fin, XReal.one_def, XReal.fin_mul, XReal.fin_sub, XReal.fin_add, Bool.false_eq_true, if_false]
        refine Or.inr ⟨b, _, rfl, by positivity, ?_⟩
        rw [add_mul, mul_assoc, ← Real.exp_add, sub_add_cancel, one_mul, expWeight, sub_zero]
      · have hl : FP.ltb (XReal.fin a) (XReal.fin b) = false := by
          rw [Bool.eq_false_iff, Ne, XReal.ltb_fin]; exact hlt
        simp only [mseCudaStep, XReal.isInf_fin, hl, XReal.exp_fin, XReal.fin_sub, XReal.fin_add, Bool.false_eq_true, if_false]
        refine Or.inr ⟨a, _, rfl, by positivity, ?_⟩
        rw [add_mul, ← Real.exp_add, sub_add_cancel, expWeight, sub_zero]

theorem CRep.fold {x0 : XReal} (h0 : x0.NumOrMask) (n : Nat) {y : Nat → XReal} (hy : ∀ q, q < n → (y q).NumOrMask) :
    CRep (foldP n (fun q p => mseCudaStep (y q) p) (x0, 1)) (expWeight 0 x0 + ∑ q ∈ range n, expWeight 0 (y q)) := by
  induction n with
  | zero =>
    simp only [foldP, range_zero, sum_empty, add_zero]
    rcases h0 with rfl | ⟨a, rfl⟩
    · exact Or.inl ⟨rfl, rfl⟩
    · exact Or.inr ⟨a, 1, rfl, by norm_num, by simp [expWeight]⟩
  | succ n ih =>
    rw [foldP, sum_range_succ, ← add_assoc]
    exact (ih fun q hq => hy q (by omega)).step (hy n (by omega))

/-! ### The program of a thread -/

def mseTail4 (b : Dim3) (x o : Nat) : Prog XReal :=
  if x = 0 then .rd (.shared b, 1) fun bs =>
    if FP.ltb 0 bs then .rd (.shared b, 0) fun max_val => .rd (.shared b, 1) fun sum_val => .rd (.glob 0, o + 1) fun sum_output =>
      if FP.eqb sum_output 0 then .wr (.glob 0, o) max_val (.wr (.glob 0, o + 1) sum_val .done)
      else .rd (.glob 0, o) fun max_output =>
        if FP.ltb max_val max_output then .wr (.glob 0, o) max_output (.wr (.glob 0, o + 1) (sum_output + sum_val * FP.exp (max_val - max_output)) .done)
        else .wr (.glob 0, o) max_val (.wr (.glob 0, o + 1) (sum_output * FP.exp (max_output - max_val) + sum_val) .done)
    else .done
  else .done
def mseTail3 (b : Dim3) (x o : Nat) (p : XReal × XReal) : Prog XReal :=
  if FP.isInf p.1 then .sync (mseTail4 b x o) else .rd (.shared b, 0) fun bm => .atomicAdd (.shared b, 1) (p.2 * FP.exp (p.1 - bm)) (.sync (mseTail4 b x o))
def mseTail2 (b : Dim3) (x o : Nat) (p : XReal × XReal) : Prog XReal := .raise (.shared b, 0) p.1 (.sync (mseTail3 b x o p))
def mseTail1 (b : Dim3) (x o : Nat) (p : XReal × XReal) : Prog XReal :=
  if x = 0 then .wr (.shared b, 0) p.1 (.wr (.shared b, 1) 0 (.sync (mseTail2 b x o p))) else .sync (mseTail2 b x o p)

def msePre (m k x i1 i2 : Nat) : PM XReal (XReal × XReal) := do
  let x0 ← ld 1 (i2*(m*k) + i1 + x*m)
  forP (strideCount (x + 32) k 32) (fun q p => do
    let val ← ld 1 (i2*(m*k) + i1 + (x + 32 + q*32)*m)
    pure (mseCudaStep val p)) (x0, (1 : XReal))

def mseBody (m k : Nat) (t : Tid) (i1 i2 : Nat) : PM XReal Unit := do
  let x0 ← ld 1 (i2*(m*k) + i1 + t.thr.x*m)
  let p ← forP (strideCount (t.thr.x + 32) k 32) (fun q p => do
    let val ← ld 1 (i2*(m*k) + i1 + (t.thr.x + 32 + q*32)*m)
    pure (mseCudaStep val p)) (x0, (1 : XReal))
  if t.thr.x = 0 then do
    sst t.blk 0 p.1
    sst t.blk 1 0
  else pure ()
  syncthreads
  sraise t.blk 0 p.1
  syncthreads
  if FP.isInf p.1 then pure ()
  else do
    let bm ← sld t.blk 0
    sadd t.blk 1 (p.2 * FP.exp (p.1 - bm))
  syncthreads
  if t.thr.x = 0 then do
    let bs ← sld t.blk 1
    if FP.ltb 0 bs then do
      let max_val ← sld t.blk 0
      let sum_val ← sld t.blk 1
      let o := 2*(i1 + i2*m)
      let sum_output ← ld 0 (o + 1)
      if FP.eqb sum_output 0 then do
        st 0 o max_val
        st 0 (o + 1) sum_val
      else do
        let max_output ← ld 0 o
        if FP.ltb max_val max_output then do
          st 0 o max_output
          st 0 (o + 1) (sum_output + sum_val * FP.exp (max_val - max_output))
        else do
          st 0 o max_val
          st 0 (o + 1) (sum_output * FP.exp (max_output - max_val) + sum_val)
    else pure ()
  else pure ()

theorem maxsumexpCuda_def (m n k : Nat) : (maxsumexpCuda m n k : Launch XReal) = perBlockLaunch m n 2 (fun x => x < k) (mseBody m k) := rfl

theorem mseBody_prog (m k : Nat) (t : Tid) (i1 i2 : Nat) : (mseBody m k t i1 i2).prog = msePre m k t.thr.x i1 i2 fun p => mseTail1 t.blk t.thr.x (2*(i1 + i2*m)) p := by
  have e4 : ((if t.thr.x = 0 then do
    let bs ← sld t.blk 1
    if FP.ltb 0 bs then do
      let max_val ← sld t.blk 0
      let sum_val ← sld t.blk 1
      let o := 2*(i1 + i2*m)
      let sum_output ← ld 0 (o + 1)
      if FP.eqb sum_output 0 then do
        st 0 o max_val
        st 0 (o + 1) sum_val
      else do
        let max_output ← ld 0 o
        if FP.ltb max_val max_output then do
          st 0 o max_output
          st 0 (o + 1) (sum_output + sum_val * FP.exp (max_val - max_output))
        else do
          st 0 o max_val
          st 0 (o + 1) (sum_output * FP.exp (max_output - max_val) + sum_val)
    else pure ()
   else pure ()) : PM XReal Unit).prog = mseTail4 t.blk t.thr.x (2*(i1 + i2*m)) := by
    unfold mseTail4
    by_cases h : t.thr.x = 0
    swap
    · rw [if_neg h, if_neg h]; rfl
    rw [if_pos h, if_pos h]
    change Prog.rd _ _ = _
    congr 1
    funext bs
    dsimp only
    split
    swap
    · rfl
    change Prog.rd _ _ = _
    congr 1
    funext mv
    change Prog.rd _ _ = _
    congr 1
    funext sv
    change Prog.rd _ _ = _
    congr 1
    funext so
    dsimp only
    split
    · rfl
    change Prog.rd _ _ = _
    congr 1
    funext mo
    dsimp only
    split <;> rfl
  unfold mseBody msePre
  change Prog.rd _ _ = Prog.rd _ _
  congr 1
  funext x0
  change forP _ _ _ _ = forP _ _ _ _
  congr 1
  funext p
  unfold mseTail1 mseTail2 mseTail3
  dsimp only
  rw [← e4]
  by_cases h : t.thr.x = 0
  · rw [if_pos h]
    simp only [h, if_true]
    by_cases hi : FP.isInf p.1
    · simp only [hi, if_true]; rfl
    · simp only [hi]; rfl
  · rw [if_neg h]
    simp only [h, if_false]
    by_cases hi : FP.isInf p.1
    · simp only [hi, if_true]; rfl
    · simp only [hi]; rfl

/-! ### All threads -/

theorem BlockOk.nil {α : Type} [FP α] {W G : Loc → Prop} {Post : Mem α → Prop} (hp : ∀ m, Post m) : ∀ n m P, BlockOk ([] : List Tid) W G Post n m P := by
  intro n
  induction n with
  | zero => intro m P; exact ⟨fun t ht => (List.not_mem_nil ht).elim, hp m⟩
  | succ n ih =>
    intro m P
    refine BlockOk.phase List.nodup_nil ⟨fun _ _ => False, fun _ => False, fun _ => False, fun _ => False, fun _ => 0⟩ ?_ ⟨?_, ?_, ?_, ?_⟩ (fun t ht => (List.not_mem_nil ht).elim) ?_ (fun _ => .done) (fun _ _ => True) trivial
      (fun _ t _ ht => (List.not_mem_nil ht).elim) (fun _ m' _ _ => ih m' _)
    · refine ⟨?_, ?_, ?_, ?_, ?_, ?_, ?_, ?_, ?_⟩ <;> first | (intro l h; exact h.elim) | (intro t l h; exact h.elim) | (intro t u l _ h; exact h.elim)
    · intro t l h; exact h.elim
    · intro l h; exact h.elim
    · intro l h; exact h.elim
    · intro l h; exact h.elim
    · intro l h; exact h.elim


section
variable {m n k : Nat} (hm : 0 < m ∧ m ≤ 65535) (hn : 0 < n ∧ n ≤ 65535) (hk : 0 < k)
include hm hn hk

set_option maxHeartbeats 1000000 in
theorem maxsumexpCuda_works {src dst : Buf XReal} (x : Nat → Nat → Nat → XReal) (a s : Nat → Nat → ℝ)
    (hx : ∀ i1 i2 j, i1 < m → i2 < n → j < k → src.rd (i2*(m*k) + i1 + j*m) = .ok (x i1 i2 j) ∧ (x i1 i2 j).NumOrMask)
    (hd : ∀ i1 i2, i1 < m → i2 < n → dst.rd (2*(i1 + i2*m)) = .ok (.fin (a i1 i2)) ∧ dst.rd (2*(i1 + i2*m) + 1) = .ok (.fin (s i1 i2)) ∧ 0 ≤ s i1 i2) :
    (maxsumexpCuda m n k).Works (taskBufs dst [src]) fun bs => (∀ b, 0 < b → bs b = taskBufs dst [src] b) ∧ (bs 0).size = dst.size ∧
      (∀ c, (∀ i1 i2, i1 < m → i2 < n → c ≠ 2*(i1 + i2*m) ∧ c ≠ 2*(i1 + i2*m) + 1) → (bs 0).data c = dst.data c) ∧
      ∀ i1 i2, i1 < m → i2 < n → ∃ a' s' : ℝ, (bs 0).rd (2*(i1 + i2*m)) = .ok (.fin a') ∧ (bs 0).rd (2*(i1 + i2*m) + 1) = .ok (.fin s') ∧ 0 ≤ s' ∧
        s' * Real.exp a' = s i1 i2 * Real.exp (a i1 i2) + ∑ j ∈ range k, expWeight 0 (x i1 i2 j) := by
  classical
  rw [maxsumexpCuda_def]
  set g := perBlockLaunch m n 2 (fun x => x < k) (mseBody m k) with hg
  have hv : g.Valid := perBlock_valid hm hn
  have hhas : ∀ {t}, g.Has t ↔ t.blk.x = 0 ∧ t.blk.y < m ∧ t.blk.z < n ∧ t.thr.x < 32 ∧ t.thr.y = 0 ∧ t.thr.z = 0 := perBlock_has hm hn
  set m0 := g.mem (taskBufs dst [src]) with hm0
  let o : Dim3 → Nat := fun b => 2*(b.y + b.z*m)
  let isB : Dim3 → Prop := fun b => b.x = 0 ∧ b.y < m ∧ b.z < n
  let T : Dim3 → ℝ := fun b => ∑ j ∈ range k, expWeight 0 (x b.y b.z j)
  let W : Dim3 → Loc → Prop := fun b l => l.1 = .shared b ∨ (isB b ∧ (l = (.glob 0, o b) ∨ l = (.glob 0, o b + 1)))
  let Post : Dim3 → Mem XReal → Prop := fun b m => isB b → ∃ a' s' : ℝ, m.rd (.glob 0, o b) = .ok (.fin a') ∧ m.rd (.glob 0, o b + 1) = .ok (.fin s') ∧ 0 ≤ s' ∧
    s' * Real.exp a' = s b.y b.z * Real.exp (a b.y b.z) + T b
  have hoinj : ∀ b b', isB b → isB b' → o b = o b' → b = b' := by
    rintro ⟨x, y, z⟩ ⟨x', y', z'⟩ ⟨h1, h2, h3⟩ ⟨g1, g2, g3⟩ e
    simp only [o] at e
    dsimp only at h1 h2 h3 g1 g2 g3
    have e : y + z*m = y' + z'*m := by omega
    have e1 := tid_eta (y := z) h2
    have e2 := tid_eta (y := z') g2
    rw [e] at e1
    have := e1.1.symm.trans e2.1
    have := e1.2.symm.trans e2.2
    subst_vars
    rfl
  have hstart : ∀ t, g.Has t → t.thr.x < k → g.start t = msePre m k t.thr.x t.blk.y t.blk.z fun p => mseTail1 t.blk t.thr.x (o t.blk) p := by
    intro t ht h
    unfold Launch.start
    rw [if_pos ⟨hv, ht⟩, hg, perBlock_body hm hn ht, if_pos (by simpa using h), mseBody_prog]
  -- what a thread reads
  let pv : Nat → Dim3 → XReal × XReal := fun z b => foldP (strideCount (z + 32) k 32) (fun q p => mseCudaStep (x b.y b.z (z + 32 + q*32)) p) (x b.y b.z z, 1)
  let w : Nat → Dim3 → ℝ := fun z b => ∑ j ∈ (range k).filter (· % 32 = z), expWeight 0 (x b.y b.z j)
  have hcount : ∀ z, z < 32 → z < k → strideCount z k 32 = strideCount (z + 32) k 32 + 1 := by
    intro z h1 h2
    unfold strideCount
    omega
  have hlt : ∀ z, z < 32 → z < k → ∀ q, q < strideCount (z + 32) k 32 → z + 32 + q*32 < k := by
    intro z h1 h2 q hq
    have := (mem_strided (n := k) h1 (i := z + (q+1)*32)).1 (List.mem_map.2 ⟨q+1, List.mem_range.2 (by rw [hcount z h1 h2]; omega), rfl⟩)
    rw [Nat.add_mul] at this
    omega
  have hpre : ∀ t, g.Has t → t.thr.x < k → (msePre m k t.thr.x t.blk.y t.blk.z).Reads m0 (pv t.thr.x t.blk) := by
    intro t ht hxk
    have h := hhas.1 ht
    refine reads_bind (reads_ld (x := x t.blk.y t.blk.z t.thr.x) ?_) (reads_forP (g := fun q p => mseCudaStep (x t.blk.y t.blk.z (t.thr.x + 32 + q*32)) p) _ (fun q hq p => reads_bind (reads_ld ?_) (reads_pure (α := XReal) _ _)) _)
    · rw [hm0, mem_rd_src]; exact (hx _ _ _ h.2.1 h.2.2.1 hxk).1
    · rw [hm0, mem_rd_src]; exact (hx _ _ _ h.2.1 h.2.2.1 (hlt _ h.2.2.2.1 hxk q hq)).1
  have hrep : ∀ b z, isB b → z < 32 → z < k → CRep (pv z b) (w z b) := by
    intro b z hb hz hzk
    have := CRep.fold (hx b.y b.z z hb.2.1 hb.2.2 hzk).2 (strideCount (z + 32) k 32) (y := fun q => x b.y b.z (z + 32 + q*32)) (fun q hq => (hx _ _ _ hb.2.1 hb.2.2 (hlt z hz hzk q hq)).2)
    simp only [w, pv]
    rw [← sum_strided hz (fun j => expWeight 0 (x b.y b.z j)), hcount z hz hzk, sum_range_succ']
    rw [Nat.zero_mul, Nat.add_zero, add_comm (∑ _ ∈ _, _)]
    have e : ∀ q, z + (q + 1)*32 = z + 32 + q*32 := fun q => by rw [Nat.add_mul]; omega
    simp only [e]
    exact this
  have hfin : ∀ b, isB b → ((g.blockL (fun t => t.thr.x < k) b).map fun t => w t.thr.x b).sum = T b := by
    intro b hb
    have hp : (g.blockL (fun t => t.thr.x < k) b).Perm ((List.range (min 32 k)).map fun z => ⟨b, ⟨z, 0, 0⟩⟩) := by
      refine (List.perm_ext_iff_of_nodup Launch.blockL_nodup (List.nodup_range.map fun a b h => by simpa using h)).2 fun u => ?_
      simp only [Launch.mem_blockL, List.mem_map, List.mem_range]
      constructor
      · rintro ⟨h1, h2, h3⟩
        have h := hhas.1 h2
        refine ⟨u.thr.x, by omega, ?_⟩
        obtain ⟨ub, ⟨ux, uy, uz⟩⟩ := u
        obtain ⟨_, _, _, _, h5, h6⟩ := h
        dsimp only at h1 h5 h6
        subst h1 h5 h6
        rfl
      · rintro ⟨z, hz, rfl⟩
        exact ⟨rfl, hhas.2 ⟨hb.1, hb.2.1, hb.2.2, by dsimp only; omega, rfl, rfl⟩, by dsimp only; omega⟩
    rw [(hp.map _).sum_eq, List.map_map, list_sum_real]
    simp only [Function.comp, w, T]
    exact sum_fiberwise_of_maps_to (fun i hi => mem_range.2 (by have := mem_range.1 hi; have := Nat.mod_le i 32; have := Nat.mod_lt i (show 0 < 32 by omega); omega)) _
  have hwork := Launch.works_of_phases (g := g) (act := fun t => t.thr.x < k) (taskBufs dst [src]) (by
    intro t ht
    unfold Launch.start
    split
    swap
    · rfl
    rename_i h
    rw [hg, perBlock_body hm hn h.2, if_neg]
    simpa using fun h' => ht ⟨h.2, h'⟩) W SrcLoc (by
    rintro b b' l hb (h | ⟨h1, h2⟩) (h' | ⟨g1, g2⟩)
    · rw [h] at h'; cases h'; exact hb rfl
    · rcases g2 with rfl | rfl <;> cases h
    · rcases h2 with rfl | rfl <;> cases h'
    · refine hb (hoinj _ _ h1 g1 ?_)
      rcases h2 with rfl | rfl <;> rcases g2 with h | h <;> simp only [Prod.mk.injEq, true_and] at h <;> simp only [o] at h ⊢ <;> omega) (by
    rintro b l (h | ⟨h1, rfl | rfl⟩) ⟨j, hj⟩
    · rw [h] at hj; cases hj
    · cases hj
    · cases hj) Post (by
    intro b m m1 hag hp hb
    rw [hag.1 _ (Or.inl (Or.inr ⟨hb, Or.inl rfl⟩)), hag.1 _ (Or.inl (Or.inr ⟨hb, Or.inr rfl⟩))]
    exact hp hb) 4 (by
    intro b
    set L := g.blockL (fun t => t.thr.x < k) b with hLdef
    have hL : L.Nodup := Launch.blockL_nodup
    have hmem : ∀ t ∈ L, t.blk = b ∧ g.Has t ∧ t.thr.x < k := fun t ht => Launch.mem_blockL.1 ht
    have hB : ∀ t ∈ L, isB b ∧ t.thr.x < 32 := by
      intro t ht
      obtain ⟨e, h, _⟩ := hmem t ht
      have := hhas.1 h
      rw [e] at this
      exact ⟨⟨this.1, this.2.1, this.2.2.1⟩, this.2.2.2.1⟩
    have hxinj : ∀ t ∈ L, ∀ u ∈ L, t.thr.x = u.thr.x → t = u := by
      rintro ⟨tb, ⟨x, y, z⟩⟩ ht ⟨ub, ⟨x', y', z'⟩⟩ hu e
      have h1 := hhas.1 (hmem _ ht).2.1
      have h2 := hhas.1 (hmem _ hu).2.1
      have e1 := (hmem _ ht).1.trans (hmem _ hu).1.symm
      dsimp only at h1 h2 e e1
      obtain ⟨_, _, _, _, a1, a2⟩ := h1
      obtain ⟨_, _, _, _, b1, b2⟩ := h2
      subst e e1 a1 a2 b1 b2
      rfl
    have hexist : isB b → ∃ t ∈ L, t.thr.x = 0 := by
      intro hb
      exact ⟨⟨b, ⟨0, 0, 0⟩⟩, Launch.mem_blockL.2 ⟨rfl, hhas.2 ⟨hb.1, hb.2.1, hb.2.2, by dsimp only; omega, rfl, rfl⟩, hk⟩, rfl⟩
    have hsh0 : (m0 (.shared b)).size = 2 := rfl
    let P : Tid → XReal × XReal := fun t => pv t.thr.x b
    have hP : ∀ t ∈ L, CRep (P t) (w t.thr.x b) := fun t ht => hrep b _ (hB t ht).1 (hB t ht).2 (hmem t ht).2.2
    have hP1 : ∀ t ∈ L, (P t).1 = .ninf ∨ ∃ a, (P t).1 = .fin a := by
      intro t ht
      rcases hP t ht with ⟨e, _⟩ | ⟨a, s, e, _⟩
      · exact Or.inl (by rw [e])
      · exact Or.inr ⟨a, by rw [e]⟩
    -- phase 1
    let c1 : Cls XReal := ⟨fun t l => t ∈ L ∧ t.thr.x = 0 ∧ l.1 = .shared b, SrcLoc, fun _ => False, fun _ => False, fun _ => 0⟩
    have hc1 : c1.Ok := by
      refine ⟨?_, ?_, ?_, ?_, ?_, ?_, ?_, ?_, ?_⟩ <;> try (intro l h; exact h.elim)
      · rintro t u l hne ⟨h1, h2, h3⟩ ⟨g1, g2, g3⟩
        exact hne (hxinj t h1 u g1 (h2.trans g2.symm))
      · rintro t l ⟨h1, h2, h3⟩ ⟨j, hj⟩; rw [h3] at hj; cases hj
      · rintro t l _ h; exact h
      · rintro t l _ h; exact h
    refine BlockOk.phase hL c1 hc1 ⟨?_, ?_, ?_, ?_⟩ ?_ ?_ (fun t => .sync (mseTail2 b t.thr.x (o b) (P t)))
      (fun K m => (∀ t ∈ K, t.thr.x = 0 → m.rd (.shared b, 0) = .ok (pv 0 b).1 ∧ m.rd (.shared b, 1) = .ok 0) ∧ (∀ l : Loc, l.1 ≠ .shared b → m.rd l = m0.rd l) ∧
        ∀ sp, (m sp).size = (m0 sp).size) ?_ ?_ ?_
    · rintro t l ⟨_, _, h⟩; exact Or.inl h
    · intro l h; exact h.elim
    · intro l h; exact h.elim
    · intro l h; exact Or.inr h
    · intro t ht
      obtain ⟨e1, e2, e3⟩ := hmem t ht
      rw [hstart t e2 e3]
      refine (hpre t e2 e3).foot c1 t _ (fun l h => h) ?_
      rw [e1]
      unfold mseTail1
      by_cases h : t.thr.x = 0
      · rw [if_pos h]
        exact ⟨⟨ht, h, rfl⟩, ⟨ht, h, rfl⟩, trivial⟩
      · rw [if_neg h]; trivial
    · intro l h; exact h.elim
    · exact ⟨by simp, fun _ _ => rfl, fun _ => rfl⟩
    · rintro K t m' ht hK ⟨i1, i2, i3⟩
      obtain ⟨e1, e2, e3⟩ := hmem t ht
      rw [hstart t e2 e3]
      refine (hpre t e2 e3).wp _ _ _ m' (fun l hl => i2 l ?_) ?_
      · rintro h; obtain ⟨j, hj⟩ := hl; rw [h] at hj; cases hj
      rw [e1]
      unfold mseTail1
      by_cases h : t.thr.x = 0
      · rw [if_pos h]
        obtain ⟨m1, w1, w2, w3, w4⟩ := Mem.can_wr (m := m') (l := (.shared b, 0)) (by rw [i3, hsh0]; exact (by omega : 0 < 2)) (pv t.thr.x b).1
        obtain ⟨m2, x1, x2, x3, x4⟩ := Mem.can_wr (m := m1) (l := (.shared b, 1)) (by rw [w4, i3, hsh0]; exact (by omega : 1 < 2)) (0 : XReal)
        refine ⟨m1, w1, m2, x1, rfl, ?_, ?_, fun sp => (x4 sp).trans ((w4 sp).trans (i3 sp))⟩
        · intro u _ _
          exact ⟨by rw [x3 _ (by simp), w2, h], x2⟩
        · intro l hl
          rw [x3 _ (by rintro rfl; exact hl rfl), w3 _ (by rintro rfl; exact hl rfl), i2 l hl]
      · rw [if_neg h]
        refine ⟨rfl, ?_, i2, i3⟩
        intro u hu hl
        rcases List.mem_cons.1 hu with rfl | hu
        · exact (h hl).elim
        · exact i1 u hu hl
    rintro K1 m1 hK1 ⟨i1, i2, i3⟩
    have i1' : isB b → m1.rd (.shared b, 0) = .ok (pv 0 b).1 ∧ m1.rd (.shared b, 1) = .ok 0 := by
      intro hb
      obtain ⟨t, ht, hx⟩ := hexist hb
      exact i1 t (hK1.mem_iff.2 ht) hx
    -- phase 2
    let c2 : Cls XReal := ⟨fun _ _ => False, fun _ => False, fun _ => False, fun l => isB b ∧ l = (.shared b, 0), fun _ => (pv 0 b).1⟩
    have hc2 : c2.Ok := by
      refine ⟨?_, ?_, ?_, ?_, ?_, ?_, ?_, ?_, ?_⟩ <;> try (intro l h; exact h.elim)
      · intro t u l _ h; exact h.elim
      · intro t l h; exact h.elim
      · intro t l h; exact h.elim
      · intro t l h; exact h.elim
      · intro l _ h; exact h
      · intro l _
        exact ⟨XReal.ltb_irrefl, fun x y z => XReal.ltb_trans⟩
    refine BlockOk.phase hL c2 hc2 ⟨?_, ?_, ?_, ?_⟩ ?_ ?_ (fun t => .sync (mseTail3 b t.thr.x (o b) (P t)))
      (fun K m => (isB b → ∃ M, m.rd (.shared b, 0) = .ok M ∧ (M = .ninf ∨ ∃ a, M = .fin a) ∧ ((pv 0 b).1 ≠ .ninf → M ≠ .ninf) ∧ ∀ u ∈ K, (P u).1 ≠ .ninf → M ≠ .ninf) ∧
        (isB b → m.rd (.shared b, 1) = .ok 0) ∧ (∀ l : Loc, l.1 ≠ .shared b → m.rd l = m0.rd l) ∧ ∀ sp, (m sp).size = (m0 sp).size) ?_ ?_ ?_
    · intro t l h; exact h.elim
    · intro l h; exact h.elim
    · rintro l ⟨_, rfl⟩; exact Or.inl rfl
    · intro l h; exact h.elim
    · intro t ht; exact ⟨⟨(hB t ht).1, rfl⟩, trivial⟩
    · rintro l ⟨hb, rfl⟩; exact (i1' hb).1
    · refine ⟨fun hb => ⟨_, (i1' hb).1, ?_, id, by simp⟩, fun hb => (i1' hb).2, i2, i3⟩
      obtain ⟨t, ht, hx⟩ := hexist hb
      have := hP1 t ht
      simp only [P, hx] at this
      exact this
    · rintro K t m' ht hK ⟨j1, j1', j2, j3⟩
      have hb := (hB t ht).1
      obtain ⟨M, hM, hM1, hM2, hM3⟩ := j1 hb
      refine ⟨M, hM, fun hlt => ?_, fun hor => ?_⟩
      · obtain ⟨m2, w1, w2, w3, w4⟩ := Mem.can_wr (m := m') (l := (.shared b, 0)) (by rw [j3, hsh0]; exact (by omega : 0 < 2)) (P t).1
        have hne : (P t).1 ≠ .ninf := by
          intro h
          change FP.ltb (pv 0 b).1 (P t).1 = true at hlt
          rw [h] at hlt
          cases hh : (pv 0 b).1 <;> rw [hh] at hlt <;> exact absurd hlt (by simp [FP.ltb, XReal.ltb])
        refine ⟨m2, w1, rfl, fun _ => ⟨(P t).1, w2, hP1 t ht, fun _ => hne, fun _ _ _ => hne⟩, fun _ => ?_, fun l hl => ?_, fun sp => (w4 sp).trans (j3 sp)⟩
        · rw [w3 _ (by simp), j1' hb]
        · rw [w3 _ (by rintro rfl; exact hl rfl), j2 l hl]
      · refine ⟨rfl, fun _ => ⟨M, hM, hM1, hM2, fun u hu hne => ?_⟩, j1', j2, j3⟩
        rcases List.mem_cons.1 hu with rfl | hu
        · rintro rfl
          have hbase : (pv 0 b).1 = .ninf := by by_contra h; exact hM2 h rfl
          rcases hor with h | h
          · exact h hbase.symm
          · change FP.ltb (pv 0 b).1 (P u).1 = false at h
            obtain ⟨a, ha⟩ := (hP1 u ht).resolve_left hne
            rw [hbase, ha, XReal.ltb_ninf] at h
            cases h
        · exact hM3 u hu hne
    rintro K2 m2 hK2 ⟨j1, j1', j2, j3⟩
    by_cases hb : isB b
    swap
    · have hnil : L = [] := List.eq_nil_iff_forall_not_mem.2 fun t ht => hb (hB t ht).1
      rw [hnil]
      exact BlockOk.nil (fun _ h => (hb h).elim) _ _ _
    obtain ⟨M, hM, hM1, -, hM3⟩ := j1 hb
    have hM3' : M = .ninf → ∀ t ∈ L, P t = (.ninf, .fin 1) ∧ w t.thr.x b = 0 := by
      intro hMn t ht
      rcases hP t ht with h | ⟨a, s, e, _⟩
      · exact h
      · exact absurd hMn (hM3 t (hK2.mem_iff.2 ht) (by rw [e]; simp))
    have j1' := j1' hb
    -- phase 3; `A`: the common maximum
    obtain ⟨A, hA⟩ : ∃ A, ∀ a, M = .fin a → A = a := by
      rcases hM1 with h | ⟨a, h⟩
      · exact ⟨0, fun a h' => by rw [h] at h'; cases h'⟩
      · exact ⟨a, fun a' h' => by rw [h] at h'; cases h'; rfl⟩
    let c3 : Cls XReal := ⟨fun _ _ => False, fun l => l = (.shared b, 0), fun l => l = (.shared b, 1), fun _ => False, fun _ => 0⟩
    have hc3 : c3.Ok := by
      refine ⟨?_, ?_, ?_, ?_, ?_, ?_, ?_, ?_, ?_⟩ <;> try (intro l h; exact h.elim)
      · intro t u l _ h; exact h.elim
      · intro t l h; exact h.elim
      · intro t l h; exact h.elim
      · intro t l h; exact h.elim
      · rintro l rfl h; cases h
      · intro l _ h; exact h
      · intro l _ x v w; exact XReal.add_right_comm' x v w
    refine BlockOk.phase hL c3 hc3 ⟨?_, ?_, ?_, ?_⟩ ?_ ?_ (fun t => .sync (mseTail4 b t.thr.x (o b)))
      (fun K m => m.rd (.shared b, 1) = .ok (.fin ((K.map fun u => w u.thr.x b * Real.exp (-A)).sum)) ∧ (∀ l : Loc, l ≠ (.shared b, 1) → m.rd l = m2.rd l) ∧ ∀ sp, (m sp).size = (m0 sp).size) ?_ ?_ ?_
    · intro t l h; exact h.elim
    · rintro l rfl; exact Or.inl rfl
    · intro l h; exact h.elim
    · rintro l rfl; exact Or.inl (Or.inl rfl)
    · intro t ht
      change (mseTail3 b t.thr.x (o b) (P t)).FootB c3 m2 t
      unfold mseTail3
      split
      · trivial
      · exact Or.inr ⟨rfl, fun _ _ => ⟨Or.inr rfl, trivial⟩⟩
    · intro l h; exact h.elim
    · exact ⟨by simpa using j1', fun _ _ => rfl, j3⟩
    · rintro K t m' ht hK ⟨k1, k2, k3⟩
      change (mseTail3 b t.thr.x (o b) (P t)).wp _ _ m'
      unfold mseTail3
      rcases hP t ht with ⟨e, e'⟩ | ⟨a, s, e, hs, hw⟩
      · rw [if_pos (by rw [e]; rfl)]
        refine ⟨rfl, ?_, k2, k3⟩
        rw [List.map_cons, List.sum_cons, e', zero_mul, zero_add]
        exact k1
      · rw [if_neg (by rw [e]; simp)]
        obtain ⟨a', ha'⟩ : ∃ a', M = .fin a' := hM1.resolve_left (hM3 t (hK2.mem_iff.2 ht) (by rw [e]; simp))
        have hAa := hA a' ha'
        subst hAa
        obtain ⟨m3, w1, w2, w3, w4⟩ := Mem.can_wr (m := m') (l := (.shared b, 1)) (by rw [k3, hsh0]; exact (by omega : 1 < 2))
          (XReal.fin ((K.map fun u => w u.thr.x b * Real.exp (-A)).sum) + XReal.fin s * FP.exp (XReal.fin a - XReal.fin A))
        refine ⟨M, by rw [k2 _ (by simp), hM], _, m3, k1, by rw [e, ha']; exact w1, rfl, ?_, fun l hl => ?_, fun sp => (w4 sp).trans (k3 sp)⟩
        · rw [w2, XReal.fin_sub, XReal.exp_fin, XReal.fin_mul, XReal.fin_add, List.map_cons, List.sum_cons, ← hw, add_comm, sub_eq_add_neg, Real.exp_add, mul_assoc]
        · rw [w3 _ hl, k2 l hl]
    rintro K3 m3 hK3 ⟨k1, k2, k3⟩
    have hS : m3.rd (.shared b, 1) = .ok (.fin (T b * Real.exp (-A))) := by
      rw [k1, (hK3.map _).sum_eq, List.sum_map_mul_right, hfin b hb]
    have hMax : m3.rd (.shared b, 0) = .ok M := by rw [k2 _ (by simp), hM]
    have hT0 : 0 ≤ T b := sum_nonneg fun j _ => by cases x b.y b.z j <;> simp [expWeight, Real.exp_nonneg]
    have hTM : 0 < T b → M = .fin A := by
      intro h
      rcases hM1 with h' | ⟨a', h'⟩
      · exfalso
        have : T b = 0 := by
          rw [← hfin b hb]
          refine List.sum_eq_zero fun y hy => ?_
          obtain ⟨t, ht, rfl⟩ := List.mem_map.1 hy
          exact (hM3' h' t ht).2
        linarith
      · rw [h', hA a' h']
    obtain ⟨d1, d2, d3⟩ := hd b.y b.z hb.2.1 hb.2.2
    -- phase 4
    let c4 : Cls XReal := ⟨fun t l => t ∈ L ∧ t.thr.x = 0 ∧ (l = (.glob 0, o b) ∨ l = (.glob 0, o b + 1)), fun l => l.1 = .shared b, fun _ => False, fun _ => False, fun _ => 0⟩
    have hc4 : c4.Ok := by
      refine ⟨?_, ?_, ?_, ?_, ?_, ?_, ?_, ?_, ?_⟩ <;> try (intro l h; exact h.elim)
      · rintro t u l hne ⟨h1, h2, h3⟩ ⟨g1, g2, g3⟩
        exact hne (hxinj t h1 u g1 (h2.trans g2.symm))
      · rintro t l ⟨h1, h2, rfl | rfl⟩ h <;> cases h
      · rintro t l _ h; exact h
      · rintro t l _ h; exact h
    let Out : Mem XReal → Prop := fun m => ∃ a' s' : ℝ, m.rd (.glob 0, o b) = .ok (.fin a') ∧ m.rd (.glob 0, o b + 1) = .ok (.fin s') ∧ 0 ≤ s' ∧
      s' * Real.exp a' = s b.y b.z * Real.exp (a b.y b.z) + T b
    refine BlockOk.phase hL c4 hc4 ⟨?_, ?_, ?_, ?_⟩ ?_ ?_ (fun _ => .done)
      (fun K m => (∀ t ∈ K, t.thr.x = 0 → Out m) ∧ (∀ t ∈ L, t ∉ K → t.thr.x = 0 → m.rd (.glob 0, o b) = m0.rd (.glob 0, o b) ∧ m.rd (.glob 0, o b + 1) = m0.rd (.glob 0, o b + 1)) ∧
        (∀ l : Loc, l.1 = .shared b → m.rd l = m3.rd l) ∧ ∀ sp, (m sp).size = (m0 sp).size) ?_ ?_ ?_
    · rintro t l ⟨h1, h2, h3⟩
      exact Or.inr ⟨hb, h3⟩
    · intro l h; exact h.elim
    · intro l h; exact h.elim
    · intro l h; exact Or.inl (Or.inl h)
    · intro t ht
      change (mseTail4 b t.thr.x (o b)).FootB c4 m3 t
      unfold mseTail4
      by_cases h : t.thr.x = 0
      swap
      · rw [if_neg h]; trivial
      rw [if_pos h]
      have o1 : c4.own t (.glob 0, o b) := ⟨ht, h, Or.inl rfl⟩
      have o2 : c4.own t (.glob 0, o b + 1) := ⟨ht, h, Or.inr rfl⟩
      refine Or.inr ⟨rfl, fun bs _ => ?_⟩
      dsimp only
      split
      swap
      · trivial
      refine Or.inr ⟨rfl, fun mv _ => Or.inr ⟨rfl, fun sv _ => Or.inl ⟨o2, fun so => ?_⟩⟩⟩
      dsimp only
      split
      · exact ⟨o1, o2, trivial⟩
      refine Or.inl ⟨o1, fun mo => ?_⟩
      dsimp only
      split
      · exact ⟨o1, o2, trivial⟩
      · exact ⟨o1, o2, trivial⟩
    · intro l h; exact h.elim
    · refine ⟨by simp, fun t ht _ _ => ⟨?_, ?_⟩, fun _ _ => rfl, k3⟩
      · rw [k2 _ (by simp), j2 _ (by simp)]
      · rw [k2 _ (by simp), j2 _ (by simp)]
    · rintro K t m' ht hK ⟨l1, l2, l3, l4⟩
      change (mseTail4 b t.thr.x (o b)).wp _ _ m'
      unfold mseTail4
      by_cases h : t.thr.x = 0
      swap
      · rw [if_neg h]
        refine ⟨rfl, fun u hu hl => ?_, fun u huL hu hl => l2 u huL (fun h => hu (by simp [h])) hl, l3, l4⟩
        rcases List.mem_cons.1 hu with rfl | hu
        · exact (h hl).elim
        · exact l1 u hu hl
      rw [if_pos h]
      obtain ⟨r1, r2⟩ := l2 t ht hK h
      have r1 : m'.rd (.glob 0, o b) = .ok (.fin (a b.y b.z)) := r1.trans d1
      have r2 : m'.rd (.glob 0, o b + 1) = .ok (.fin (s b.y b.z)) := r2.trans d2
      have fin : ∀ m'' : Mem XReal, Out m'' → (∀ l : Loc, l.1 = .shared b → m''.rd l = m'.rd l) → (∀ sp, (m'' sp).size = (m' sp).size) →
          (∀ u ∈ t :: K, u.thr.x = 0 → Out m'') ∧ (∀ u ∈ L, u ∉ t :: K → u.thr.x = 0 → m''.rd (.glob 0, o b) = m0.rd (.glob 0, o b) ∧ m''.rd (.glob 0, o b + 1) = m0.rd (.glob 0, o b + 1)) ∧
          (∀ l : Loc, l.1 = .shared b → m''.rd l = m3.rd l) ∧ ∀ sp, (m'' sp).size = (m0 sp).size := by
        intro m'' hO hs hz
        refine ⟨fun _ _ _ => hO, fun u hu hnu hux => absurd (hxinj u hu t ht (hux.trans h.symm)) fun e => hnu (by simp [e]), fun l hl => (hs l hl).trans (l3 l hl), fun sp => (hz sp).trans (l4 sp)⟩
      have lt1 : o b + 1 < (m0 (.glob 0)).size := (Buf.rd_eq_ok d2).1
      have store : ∀ A' S' : ℝ, 0 ≤ S' → S' * Real.exp A' = s b.y b.z * Real.exp (a b.y b.z) + T b → ∃ m1 m2, m'.wr (.glob 0, o b) (.fin A') = .ok m1 ∧ m1.wr (.glob 0, o b + 1) (.fin S') = .ok m2 ∧ Out m2 ∧
          (∀ l : Loc, l.1 = .shared b → m2.rd l = m'.rd l) ∧ ∀ sp, (m2 sp).size = (m' sp).size := by
        intro A' S' h0 hE
        obtain ⟨m1, w1, w2, w3, w4⟩ := Mem.can_wr (m := m') (l := (.glob 0, o b)) (by rw [l4]; dsimp only; omega) (XReal.fin A')
        obtain ⟨m2, x1, x2, x3, x4⟩ := Mem.can_wr (m := m1) (l := (.glob 0, o b + 1)) (by rw [w4, l4]; exact lt1) (XReal.fin S')
        refine ⟨m1, m2, w1, x1, ⟨A', S', by rw [x3 _ (by simp), w2], x2, h0, hE⟩, fun l hl => ?_, fun sp => (x4 sp).trans (w4 sp)⟩
        rw [x3 _ (by rintro rfl; cases hl), w3 _ (by rintro rfl; cases hl)]
      refine ⟨_, (l3 _ rfl).trans hS, ?_⟩
      dsimp only
      by_cases hT : 0 < T b
      swap
      · have hT : T b = 0 := le_antisymm (not_lt.1 hT) hT0
        rw [if_neg (by rw [XReal.zero_def, XReal.ltb_fin, hT, zero_mul]; exact lt_irrefl _)]
        exact ⟨rfl, fin m' ⟨_, _, r1, r2, d3, by rw [hT, add_zero]⟩ (fun _ _ => rfl) fun _ => rfl⟩
      have hMA := hTM hT
      rw [hMA] at hMax
      rw [if_pos (by rw [XReal.zero_def, XReal.ltb_fin]; positivity)]
      refine ⟨_, (l3 _ rfl).trans hMax, _, (l3 _ rfl).trans hS, _, r2, ?_⟩
      dsimp only
      have cancel : T b * Real.exp (-A) * Real.exp A = T b := by rw [mul_assoc, ← Real.exp_add, neg_add_cancel, Real.exp_zero, mul_one]
      by_cases hs0 : s b.y b.z = 0
      · rw [if_pos (by rw [XReal.zero_def, XReal.eqb_fin]; exact hs0)]
        obtain ⟨n1, n2, q1, q2, q3, q4, q5⟩ := store A (T b * Real.exp (-A)) (by positivity) (by rw [cancel, hs0, zero_mul, zero_add])
        exact ⟨n1, q1, n2, q2, rfl, fin n2 q3 q4 q5⟩
      · rw [if_neg (by rw [XReal.zero_def, XReal.eqb_fin]; exact hs0)]
        refine ⟨_, r1, ?_⟩
        dsimp only
        by_cases hlt : A < a b.y b.z
        · rw [if_pos (by rw [XReal.ltb_fin]; exact hlt), XReal.fin_sub, XReal.exp_fin, XReal.fin_mul, XReal.fin_add]
          obtain ⟨n1, n2, q1, q2, q3, q4, q5⟩ := store (a b.y b.z) (s b.y b.z + T b * Real.exp (-A) * Real.exp (A - a b.y b.z)) (by positivity)
            (by rw [add_mul, mul_assoc _ _ (Real.exp (a b.y b.z)), ← Real.exp_add (A - a b.y b.z), sub_add_cancel, cancel])
          exact ⟨n1, q1, n2, q2, rfl, fin n2 q3 q4 q5⟩
        · rw [if_neg (by rw [XReal.ltb_fin]; exact hlt), XReal.fin_sub, XReal.exp_fin, XReal.fin_mul, XReal.fin_add]
          obtain ⟨n1, n2, q1, q2, q3, q4, q5⟩ := store A (s b.y b.z * Real.exp (a b.y b.z - A) + T b * Real.exp (-A)) (by positivity)
            (by rw [add_mul, cancel, mul_assoc, ← Real.exp_add, sub_add_cancel])
          exact ⟨n1, q1, n2, q2, rfl, fin n2 q3 q4 q5⟩
    rintro K4 m4 hK4 ⟨l1, l2, l3, l4⟩
    refine ⟨fun t _ => rfl, fun hb => ?_⟩
    obtain ⟨t, ht, hx⟩ := hexist hb
    exact l1 t (hK4.mem_iff.2 ht) hx)
  refine ⟨⟨hwork.defined, hwork.raceFree, hwork.progress, fun st hst hF => ?_⟩, hwork.finite⟩
  obtain ⟨mm, e, hp, hf, hz⟩ := hwork.result st hst hF
  have e' : ∀ c, st.mem (.glob c) = mm (.glob c) := fun c => congrFun e c
  refine ⟨fun c hc => ?_, ?_, fun c hc => ?_, fun i1 i2 h1 h2 => ?_⟩
  · dsimp only
    rw [e' c]
    obtain ⟨c, rfl⟩ : ∃ c', c = c' + 1 := ⟨c - 1, by omega⟩
    have hext : ∀ a a' : Buf XReal, a.size = a'.size → (∀ x, a.data x = a'.data x) → a = a' := by
      rintro ⟨s, d⟩ ⟨s', d'⟩ h1 h2
      simp only at h1 h2
      subst h1
      congr
      funext x
      exact h2 x
    refine hext _ _ ((hz _).trans rfl) fun y => (hf (.glob (c+1), y) fun b hb => ?_).trans rfl
    rcases hb with h | ⟨_, h | h⟩ <;> cases h
  · dsimp only
    rw [e' 0]
    exact (hz _).trans rfl
  · dsimp only
    rw [e' 0]
    refine (hf (.glob 0, c) fun b hb => ?_).trans rfl
    rcases hb with h | ⟨hb, h⟩
    · cases h
    · have := hc b.y b.z hb.2.1 hb.2.2
      rcases h with h | h <;> simp only [Prod.mk.injEq, true_and, o] at h <;> omega
  · dsimp only
    rw [e' 0]
    exact hp ⟨0, i1, i2⟩ ⟨rfl, h1, h2⟩
end
end
end NNTile
