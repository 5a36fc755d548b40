import Verif.Spec.Overwrites
import Verif.Lib.Seq
import Verif.Lib.Store
import Verif.Props.C07
import Verif.Props.C09
import Verif.Lib.CopyIntersection
import Verif.Props.C11
import Verif.Props.C12
import Verif.Props.C13
import Verif.Props.C14
import Verif.Props.C15
import Verif.Props.C16
import Verif.Props.C17
import Verif.Props.C18
import Verif.Props.C20
import Verif.Props.C22
import Verif.Props.C24
/-!
# C28 — access modes are sufficient for what tasks read

Every function below submits tiles in write-only mode. In the model the task then sees undefined contents and reading one of them is undefined behaviour.
-/
namespace NNTile
variable {α : Type}

/-! ### What `Overwrites` gives -/

/-- A freshly created destination is completely defined afterwards. -/
theorem C28_fresh {async : M (List (Task1 α))} {s : Store α} {dst : Tensor} (h : Overwrites async s dst) (hd : dst.Fresh s) :
    ∃ tasks s', async = .ok tasks ∧ runAll1 tasks s = .ok s' ∧ dst.Defined s' ∧ OnlyChanged [dst.id] s s' := by
  obtain ⟨v, h⟩ := h
  obtain ⟨ts, s', e1, e2, e3, e4, -⟩ := h s (fun _ _ => rfl) hd.1
  exact ⟨ts, s', e1, e2, fun I hI => ⟨v I, e3 I hI⟩, e4⟩

/-- Losing the contents of the destination before the operation makes no difference to any element of the result. -/
theorem C28_wipe {async : M (List (Task1 α))} {s : Store α} {dst : Tensor} (h : Overwrites async s dst) (hd : dst.Ready s) :
    ∃ tasks s' s'', async = .ok tasks ∧ runAll1 tasks s = .ok s' ∧ runAll1 tasks (s.wipe dst.id) = .ok s'' ∧
      ∀ I, InBox dst.shape I → ∃ v, dst.get s' I = some v ∧ dst.get s'' I = some v := by
  obtain ⟨v, h⟩ := h
  obtain ⟨ts, s', e1, e2, e3, -⟩ := h s (fun _ _ => rfl) hd
  obtain ⟨ts', s'', e1', e2', e3', -⟩ := h (s.wipe dst.id) (fun k hk => by simp only [List.mem_singleton] at hk; simp [Store.wipe, hk])
    ⟨hd.1, fun i hi => by simp [Store.wipe, Buf.undef, hd.2 i hi]⟩
  obtain rfl : ts = ts' := by rw [e1] at e1'; exact (Except.ok.inj e1')
  exact ⟨ts, s', s'', e1, e2, e2', fun I hI => ⟨v I, e3 I hI, e3' I hI⟩⟩

/-- Wiping makes a tensor fresh. -/
theorem C28_wipe_fresh {s : Store α} {T : Tensor} (h : T.Ready s) : T.Fresh (s.wipe T.id) :=
  ⟨⟨h.1, fun i hi => by simp [Store.wipe, Buf.undef, h.2 i hi]⟩, fun I _ => by simp [Tensor.get, Store.wipe, Tensor.hOf, Buf.undef]⟩

/-- From a headline theorem whose value is given explicitly. -/
private theorem of_computes {async : M (List (Task1 α))} {s : Store α} {dst : Tensor} (v : List Nat → α)
    (h : ∀ s₀ : Store α, OnlyChanged [dst.id] s s₀ → dst.Ready s₀ → Computes async s₀ dst v) : Overwrites async s dst := ⟨v, h⟩

section
variable [FP α] {src src1 src2 mse dst : Tensor} {s : Store α} {a b : Nat} {x y : List Nat → α}

/-! ### Bit by bit, in any arithmetic -/

theorem C28_fill (val : α) : Overwrites (fillAsync val dst) s dst := of_computes _ fun _ _ hd => C11_fill hd val

theorem C28_clear : Overwrites (α := α) (clearAsync dst) s dst := of_computes _ fun _ _ hd => C11_clear hd

theorem C28_copy (hs : src.Ready s) (hl : src.Like dst) (hx : src.Holds s x) : Overwrites (copyAsync src dst) s dst :=
  of_computes _ fun _ hc hd => C09_copy (hc.ready hs (by simp [hl.1])) hd hl x (hc.holds hx (by simp [hl.1]))

theorem C28_scal (hs : src.Ready s) (hl : src.Like dst) (hx : src.Holds s x) (alpha : α) : Overwrites (scalAsync alpha src dst) s dst :=
  of_computes _ fun _ hc hd => C11_scal_bits (hc.ready hs (by simp [hl.1])) hd hl alpha x (hc.holds hx (by simp [hl.1]))

theorem C28_sqrt (hs : src.Ready s) (hl : src.Like dst) (hx : src.Holds s x) : Overwrites (sqrtAsync src dst) s dst :=
  of_computes _ fun _ hc hd => C11_sqrt (hc.ready hs (by simp [hl.1])) hd hl x (hc.holds hx (by simp [hl.1]))

theorem C28_relu_forward (hs : src.Ready s) (hl : src.Like dst) (hx : src.Holds s x) : Overwrites (reluForwardAsync src dst) s dst :=
  of_computes _ fun _ hc hd => C11_relu_forward (hc.ready hs (by simp [hl.1])) hd hl x (hc.holds hx (by simp [hl.1]))

theorem C28_gelutanh (hs : src.Ready s) (hl : src.Like dst) (hx : src.Holds s x) : Overwrites (gelutanhAsync src dst) s dst :=
  of_computes _ fun _ hc hd => C11_gelutanh (hc.ready hs (by simp [hl.1])) hd hl x (hc.holds hx (by simp [hl.1]))

/-- `hypot` with `beta` equal to zero (the second hypothesis says that zero is not one in the arithmetic). -/
theorem C28_hypot (hs : src.Ready s) (hl : src.Like dst) (hx : src.Holds s x) (alpha : α) {beta : α} (hb : FP.eqb beta 0 = true)
    (h01 : FP.eqb beta 1 = false) : Overwrites (hypotAsync alpha src beta dst) s dst :=
  of_computes _ fun _ hc hd => C11_hypot_bits (hc.ready hs (by simp [hl.1])) hd hl alpha beta x x (hc.holds hx (by simp [hl.1])) (by simp [hb, h01])

/-- `add` with `beta` equal to zero, for every `alpha`. -/
theorem C28_add (hs : src.Ready s) (hl : src.Like dst) (hx : src.Holds s x) (alpha : α) {beta : α} (hb : FP.eqb beta 0 = true)
    (h01 : FP.eqb beta 1 = false) : Overwrites (addAsync alpha src beta dst) s dst :=
  of_computes _ fun _ hc hd => C11_add_bits_partial (hc.ready hs (by simp [hl.1])) hd hl alpha beta x x (hc.holds hx (by simp [hl.1])) (by simp [hb, h01])
    (by simp [hb])

theorem C28_add_slice (hs : src.Ready s) (hid : src.id ≠ dst.id) (h : src.SliceOf dst a) (hx : src.Holds s x) (alpha : α) {beta : α}
    (hb : FP.eqb beta 0 = true) : Overwrites (addSliceAsync alpha src beta dst a) s dst :=
  of_computes _ fun _ hc hd => C12_add_slice_bits (hc.ready hs (by simp [hid])) hd hid h alpha beta x x (hc.holds hx (by simp [hid])) (by simp [hb])

/-- `add_slice3`, for every `beta`. -/
theorem C28_add_slice3 (hs : src1.Ready s) (hs2 : src2.Ready s) (hid : src1.id ≠ dst.id) (h2 : src2.Like dst) (h : src1.SliceOf dst a)
    (hx : src1.Holds s x) (hy : src2.Holds s y) (alpha beta : α) : Overwrites (addSlice3Async alpha src1 beta src2 dst a) s dst :=
  of_computes _ fun _ hc hd => C12_add_slice3_bits (hc.ready hs (by simp [hid])) (hc.ready hs2 (by simp [h2.1])) hd hid h2 h alpha beta x y
    (hc.holds hx (by simp [hid])) (fun _ => hc.holds hy (by simp [h2.1]))

/-- `add_fiber` with `alpha` other than zero (with `alpha = 0` it submits no task at all, see C13). -/
theorem C28_add_fiber (hs : src.Ready s) (hid : src.id ≠ dst.id) (h : src.FiberOf dst a b) (hx : src.Holds s x) {alpha beta : α}
    (ha : FP.eqb alpha 0 = false) (hb : FP.eqb beta 0 = true) : Overwrites (addFiberAsync alpha src beta dst a b) s dst :=
  of_computes _ fun _ hc hd => C13_add_fiber_bits_partial (hc.ready hs (by simp [hid])) hd hid h alpha beta ha x x (hc.holds hx (by simp [hid]))
    (by simp [hb])

theorem C28_prod_fiber3 (hs : src1.Ready s) (hs2 : src2.Ready s) (hid : src1.id ≠ dst.id) (h2 : src2.Like dst) (h : src1.FiberOf dst a 0)
    (hx : src1.Holds s x) (hy : src2.Holds s y) (alpha : α) : Overwrites (prodFiber3Async src1 alpha src2 dst a) s dst :=
  of_computes _ fun _ hc hd => C13_prod_fiber3 (hc.ready hs (by simp [hid])) (hc.ready hs2 (by simp [h2.1])) hd hid h2 h alpha x y
    (hc.holds hx (by simp [hid])) (hc.holds hy (by simp [h2.1]))

theorem C28_transpose (hs : src.Ready s) (hid : src.id ≠ dst.id) (h : src.TransposeOf dst a) (hx : src.Holds s x) (alpha : α) :
    Overwrites (transposeAsync alpha src dst a) s dst :=
  of_computes _ fun _ hc hd => transposeAsync_computes (hc.ready hs (by simp [hid])) hd hid h alpha x (hc.holds hx (by simp [hid]))

theorem C28_softmax (hm : mse.Ready s) (hs : src.Ready s) (hid : mse.id ≠ dst.id) (hl : src.Like dst) (h : mse.MseOf dst a)
    (hw : mse.Holds s y) (hx : src.Holds s x) (alpha : α) : Overwrites (softmaxAsync mse src alpha dst a) s dst :=
  of_computes _ fun _ hc hd => C20_softmax_bits (hc.ready hm (by simp [hid])) (hc.ready hs (by simp [hl.1])) hd hid hl.1 h hl.2.1 hl.2.2 alpha y x
    (hc.holds hw (by simp [hid])) (hc.holds hx (by simp [hl.1]))

theorem C28_logsumexp (hm : mse.Ready s) (hid : mse.id ≠ dst.id) (hsh : mse.shape = 2 :: dst.shape) (hbt : mse.basetile = 2 :: dst.basetile)
    (hw : mse.Holds s y) : Overwrites (logsumexpAsync mse dst) s dst :=
  of_computes _ fun _ hc hd => C20_logsumexp_bits (hc.ready hm (by simp [hid])) hd hid hsh hbt y (hc.holds hw (by simp [hid]))

theorem C28_embedding {index vocab embed : Tensor} (asIdx : α → Int) (hi : index.Ready s) (hv : vocab.Ready s) (hid : index.id ≠ embed.id)
    (hid2 : vocab.id ≠ embed.id) (h : EmbedFit index vocab embed a) (hw : index.Holds s x) (hy : vocab.Holds s y) (hok : TokensOk index vocab asIdx x) :
    Overwrites (embeddingAsync asIdx index vocab embed a) s embed :=
  of_computes _ fun _ hc he => C22_embedding asIdx (hc.ready hi (by simp [hid])) (hc.ready hv (by simp [hid2])) he hid hid2 h x y
    (hc.holds hw (by simp [hid])) (hc.holds hy (by simp [hid2])) hok
end

/-! ### Copies: no arithmetic at all -/

private theorem alloc_of {T : Tensor} {s s₀ : Store α} {ids : List Nat} (hc : OnlyChanged ids s s₀) (h : T.id ∉ ids) (ha : T.Alloc s) : T.Alloc s₀ :=
  fun i hi => by rw [hc _ h]; exact ha i hi

theorem C28_scatter {src dst : Tensor} {s : Store α} {x : List Nat → α} (hs : src.Ready s) (hd : dst.WF) (hid : src.id ≠ dst.id)
    (hsh : src.shape = dst.shape) (h1 : src.ntiles = 1) (hx : src.Holds s x) : Overwrites (scatterAsync src dst) s dst := by
  refine of_computes x fun s₀ hc hd => ?_
  have hx' := hc.holds hx (by simp [hid])
  obtain ⟨t, s', e1, e2, e3, e4, e5⟩ := scatterAsync_spec hs.1 hd.1 hid hsh h1 (alloc_of hc (by simp [hid]) hs.2) hd.2 (fun I hI => ⟨_, hx' I hI⟩)
  exact ⟨t, s', e1, e2, fun I hI => by rw [e3 I hI, hx' I (hsh ▸ hI)], e4, hd.1, e5⟩

theorem C28_gather {src dst : Tensor} {s : Store α} {x : List Nat → α} (hs : src.Ready s) (hid : src.id ≠ dst.id)
    (hsh : src.shape = dst.shape) (h1 : dst.ntiles = 1) (hx : src.Holds s x) : Overwrites (gatherAsync src dst) s dst := by
  refine of_computes x fun s₀ hc hd => ?_
  have hx' := hc.holds hx (by simp [hid])
  obtain ⟨t, s', e1, e2, e3, e4, e5⟩ := gatherAsync_spec hs.1 hd.1 hid hsh h1 (alloc_of hc (by simp [hid]) hs.2) hd.2 (fun I hI => ⟨_, hx' I hI⟩)
  exact ⟨t, s', e1, e2, fun I hI => by rw [e3 I hI, hx' I (hsh ▸ hI)], e4, hd.1, e5⟩

/-- The generator of normal numbers, for every admissible position in the underlying array. -/
theorem C28_randn {υ : Type _} (uniform : Seed → υ) (normal : υ → υ → α) {dst : Tensor} {s : Store α} (start underlying : List Int) (seed : Seed)
    (hfit : BoxFits start dst.shape underlying) : Overwrites (randnAsync uniform normal dst start underlying seed) s dst := by
  obtain ⟨st, us, rfl, rfl, h1, h2⟩ := boxFits_iff.1 hfit
  refine of_computes (fun I => nthNormal uniform normal seed (lin us (addIdx st I))) fun s₀ _ hd => ?_
  obtain ⟨tasks, s', e1, e2, e3, e4, e5⟩ := randnAsync_spec uniform normal hd.1 h1 h2 seed s₀ hd.2
  exact ⟨tasks, s', e1, e2, e3, e4, hd.1, e5⟩

/-- `copy_intersection`, if every element of the destination is also in the source box. -/
theorem C28_copy_intersection {src dst : Tensor} {srcOff dstOff : List Int} {s : Store α} {x : List Nat → α} (hs : src.Ready s) (hid : src.id ≠ dst.id)
    (hl1 : srcOff.length = src.shape.length) (hl2 : src.shape.length = dst.shape.length) (hl3 : dstOff.length = dst.shape.length) (hx : src.Holds s x)
    (hcov : ∀ I, InBox dst.shape I → ∃ J, InBox src.shape J ∧ SamePlace srcOff J dstOff I) :
    Overwrites (copyIntersectionAsync src srcOff dst dstOff) s dst := by
  have : ∀ I, ∃ J, InBox dst.shape I → InBox src.shape J ∧ SamePlace srcOff J dstOff I := fun I =>
    if h : InBox dst.shape I then (hcov I h).imp fun _ h' _ => h' else ⟨[], fun h' => absurd h' h⟩
  choose J hJ using this
  refine of_computes (fun I => x (J I)) fun s₀ hc hd => ?_
  have hx' := hc.holds hx (by simp [hid])
  obtain ⟨tasks, s', e1, e2, e3, e4, e5⟩ := copyIntersectionAsync_spec hs.1 hd.1 hid hl1 hl2 hl3 (alloc_of hc (by simp [hid]) hs.2) hd.2
    (fun I hI => ⟨_, hx' I hI⟩)
  exact ⟨tasks, s', e1, e2, fun I hI => by rw [(e3 I hI).1 (J I) (hJ I hI).1 (hJ I hI).2, hx' _ (hJ I hI).1], e4, hd.1, e5⟩

/-! ### Reductions and products with `beta = 0`, with and without `redux`, for every tiling -/

section
variable {src src1 src2 dst : Tensor} {s : Store ℝ} {a b : Nat} {x y : List Nat → ℝ}

theorem C28_sum_slice (hs : src.Ready s) (hid : src.id ≠ dst.id) (h : dst.SliceOf src a) (hx : src.Holds s x) (alpha : ℝ) (redux : Bool) :
    Overwrites (sumSliceAsync alpha src 0 dst a redux) s dst :=
  of_computes _ fun _ hc hd => C14_sum_slice (hc.ready hs (by simp [hid])) hd hid h alpha 0 redux x x (hc.holds hx (by simp [hid])) (by simp)

theorem C28_sumprod_slice (hs : src1.Ready s) (hs2 : src2.Ready s) (hid : src1.id ≠ dst.id) (hid2 : src2.id ≠ dst.id) (h : dst.SliceOf src1 a)
    (hsh : src2.shape = src1.shape) (hbt : src2.basetile = src1.basetile) (hx : src1.Holds s x) (hy : src2.Holds s y) (alpha : ℝ) (redux : Bool) :
    Overwrites (sumprodSliceAsync alpha src1 src2 0 dst a redux) s dst :=
  of_computes _ fun _ hc hd => C14_sumprod_slice_partial (hc.ready hs (by simp [hid])) (hc.ready hs2 (by simp [hid2])) hd hid hid2 h hsh hbt alpha 0 redux
    x y x (hc.holds hx (by simp [hid])) (hc.holds hy (by simp [hid2])) (by simp)

theorem C28_sum_fiber (hs : src.Ready s) (hid : src.id ≠ dst.id) (h : dst.FiberOf src a b) (hx : src.Holds s x) (alpha : ℝ) (redux : Bool) :
    Overwrites (sumFiberAsync alpha src 0 dst a b redux) s dst :=
  of_computes _ fun _ hc hd => C15_sum_fiber (hc.ready hs (by simp [hid])) hd hid h alpha 0 redux x x (hc.holds hx (by simp [hid])) (by simp)

theorem C28_sumprod_fiber (hs : src1.Ready s) (hs2 : src2.Ready s) (hid : src1.id ≠ dst.id) (hid2 : src2.id ≠ dst.id) (h : dst.FiberOf src1 a 0)
    (hsh : src2.shape = src1.shape) (hbt : src2.basetile = src1.basetile) (hx : src1.Holds s x) (hy : src2.Holds s y) (alpha : ℝ) (redux : Bool) :
    Overwrites (sumprodFiberAsync alpha src1 src2 0 dst a redux) s dst :=
  of_computes _ fun _ hc hd => C15_sumprod_fiber_partial (hc.ready hs (by simp [hid])) (hc.ready hs2 (by simp [hid2])) hd hid hid2 h hsh hbt alpha 0 redux
    x y x (hc.holds hx (by simp [hid])) (hc.holds hy (by simp [hid2])) (by simp)

theorem C28_norm_slice (hs : src.Ready s) (hid : src.id ≠ dst.id) (h : dst.SliceOf src a) (hx : src.Holds s x) (alpha : ℝ) (redux : Bool) :
    Overwrites (normSliceAsync alpha src 0 dst a redux) s dst :=
  of_computes _ fun _ hc hd => C16_norm_slice (hc.ready hs (by simp [hid])) hd hid h alpha 0 redux x x (hc.holds hx (by simp [hid])) (by simp)

theorem C28_gemm {A B C : Tensor} {tA tB : TransOp} {nd bt : Nat} (hA : A.Ready s) (hB : B.Ready s) (idA : A.id ≠ C.id) (idB : B.id ≠ C.id)
    (hfit : GemmFit tA tB nd bt A B C) (hx : A.Holds s x) (hy : B.Holds s y) (alpha : ℝ) (redux : Bool) :
    Overwrites (gemmAsync alpha tA A tB B 0 C nd bt redux) s C := by
  obtain ⟨⟨M, K, N, R, hsh⟩, hbt⟩ := hfit
  refine of_computes (fun L => gemmVal tA tB K alpha 0 x y x (L.take M.length) ((L.drop M.length).take N.length) (L.drop (M.length + N.length)))
    fun s₀ hc hC => ?_
  obtain ⟨v, hv, hval⟩ := C17_gemm (hc.ready hA (by simp [idA])) (hc.ready hB (by simp [idB])) hC idA idB hsh hbt alpha 0 redux x y x
    (hc.holds hx (by simp [idA])) (hc.holds hy (by simp [idB])) (by simp)
  refine hv.congr fun L hL => ?_
  rw [hsh.2.2.2.2] at hL
  obtain ⟨u, J, rfl, hu, hJ⟩ := hL.exists_split
  obtain ⟨I, J', rfl, hI, hJ'⟩ := hu.exists_split
  rw [hval I J' J hI hJ' hJ]
  have tk1 : (I ++ J' ++ J).take M.length = I := by rw [List.append_assoc, take_of_length hI.length.symm]
  have tk2 : ((I ++ J' ++ J).drop M.length).take N.length = J' := by
    rw [List.append_assoc, drop_of_length hI.length.symm, take_of_length hJ'.length.symm]
  have tk3 : (I ++ J' ++ J).drop (M.length + N.length) = J := by rw [drop_of_length (by simp [hI.length, hJ'.length])]
  rw [tk1, tk2, tk3]

/-- `nrm2`: neither the result nor the scratch tensor of partial norms needs to be defined. -/
theorem C28_nrm2 {tmp : Tensor} (hs : src.Ready s) (hd : dst.Fresh s) (ht : tmp.Fresh s) (hid : src.id ≠ dst.id) (hid2 : src.id ≠ tmp.id)
    (hid3 : dst.id ≠ tmp.id) (h0 : dst.shape = []) (h1 : tmp.shape = src.grid) (h2 : ∀ i, i < src.ndim → tmp.basetile.getD i 0 = 1)
    (hx : src.Holds s x) (alpha : ℝ) :
    ∃ tasks s', nrm2Async alpha src 0 dst tmp = .ok tasks ∧ runAll1 tasks s = .ok s' ∧ dst.Defined s' := by
  obtain ⟨ts, s', e1, e2, e3, -⟩ := C16_nrm2 hs hd.1 ht.1 hid hid2 hid3 h0 h1 h2 alpha 0 x 0 hx (by simp)
  exact ⟨ts, s', e1, e2, fun I hI => ⟨_, e3 I hI⟩⟩
end

/-! ### Optimizers -/

/-- The first step of `adam_step` and of `adamw_step` defines both moments from scratch. -/
theorem C28_adam_first {α : Type} [FP α] {grad m v p : Tensor} {s : Store α} (hf : AdamFit grad m v p) (hgr : grad.Ready s) (hm : m.Fresh s)
    (hv : v.Fresh s) (hpr : p.Ready s) (beta_1 beta_2 eps lr weight_decay : α) {g x : List Nat → α} (hg : grad.Holds s g) (hp : p.Holds s x) :
    (∃ tasks s', adamStepAsync 1 beta_1 beta_2 eps lr weight_decay grad m v p = .ok tasks ∧ runAll tasks s = .ok s' ∧
      m.Defined s' ∧ v.Defined s' ∧ p.Defined s') ∧
    (∃ tasks s', adamwStepAsync 1 beta_1 beta_2 eps lr weight_decay grad m v p = .ok tasks ∧ runAll tasks s = .ok s' ∧
      m.Defined s' ∧ v.Defined s' ∧ p.Defined s') := by
  constructor
  · obtain ⟨ts, s', e1, e2, e3, e4, e5, -⟩ := C24_adam_first_step hf hgr hm.1 hv.1 hpr beta_1 beta_2 eps lr weight_decay hg hp _ (fun _ => rfl)
    exact ⟨ts, s', e1, e2, fun I hI => ⟨_, e3 I hI⟩, fun I hI => ⟨_, e4 I hI⟩, fun I hI => ⟨_, e5 I hI⟩⟩
  · obtain ⟨ts, s', e1, e2, e3, e4, e5, -⟩ := C24_adamw_first_step hf hgr hm.1 hv.1 hpr beta_1 beta_2 eps lr weight_decay hg hp _ (fun _ => rfl)
    exact ⟨ts, s', e1, e2, fun I hI => ⟨_, e3 I hI⟩, fun I hI => ⟨_, e4 I hI⟩, fun I hI => ⟨_, e5 I hI⟩⟩

/-! ### Examples -/

/-- The hypotheses are met: a `4×6` source cut into `2×4` tiles whose rows are summed into a fresh vector of length 6 in tiles of 4. -/
example : ∃ (src dst : Tensor) (s : Store ℝ) (x : List Nat → ℝ), src.ntiles = 4 ∧ dst.ntiles = 2 ∧ src.Ready s ∧ dst.Fresh s ∧ src.id ≠ dst.id ∧
    dst.SliceOf src 0 ∧ src.Holds s x := by
  obtain ⟨s, h1, h2⟩ := exists_store2 (A := ⟨0, [4,6], [2,4]⟩) (B := ⟨1, [6], [4]⟩) (fun I => (lin [4,6] I : ℝ)) (fun _ => (0 : ℝ)) (by decide)
    (by decide) (by decide)
  have hc : OnlyChanged [1] s (s.wipe 1) := fun k hk => by simp only [List.mem_singleton] at hk; simp [Store.wipe, hk]
  exact ⟨_, _, s.wipe 1, _, by decide, by decide, hc.ready h1.1 (by decide), C28_wipe_fresh h2.1, by decide, ⟨by decide, by decide, by decide⟩,
    hc.holds h1.2 (by decide)⟩

/-- `Overwrites` is not satisfied by an operation that does read its result: `scal_inplace` on a fresh tensor. -/
example : ¬ Overwrites (scalInplaceAsync (2 : ℝ) ⟨0, [1], [1]⟩) (fun _ => Buf.undef 1) ⟨0, [1], [1]⟩ := by
  rintro ⟨v, hv⟩
  obtain ⟨ts, s', e1, e2, -⟩ := hv (fun _ => Buf.undef 1) (fun _ _ => rfl) ⟨by decide, fun i _ => by
    simp [Buf.undef, Tensor.tshapeL, Tensor.tshape, Tensor.tindex, Tensor.grid, gridOf, unlin, tileShape, Nat.mod_one]⟩
  rw [scalInplaceAsync, loop0_ok] at e1
  obtain rfl := Except.ok.inj e1
  simp [runAll1, runAll, Tensor.ntiles, Tensor.grid, gridOf, Task1.toTask, Task.exec, Task.outs, Store.view, submitScalInplace, task0, forN, Buf.rd,
    Buf.undef, Tensor.tnelems, Tensor.tshapeL, Tensor.tshape, Tensor.tindex, unlin, tileShape, scalInplaceKernel] at e2

end NNTile
