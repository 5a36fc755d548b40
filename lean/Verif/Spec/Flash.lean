import Verif.Model.Flash
import Verif.Spec.Attention
/-!
# FlashAttention: vocabulary

`z` are the sizes of the tensors and `t` those of their tiles.
-/
namespace NNTile
variable {α : Type}

/-- The tiles of the tensors divide them evenly and the head is not divided. -/
structure FlashTiles (z t : AttnDims) : Prop where
  D : t.D = z.D
  S : t.S ∣ z.S
  B : t.B ∣ z.B
  H : t.H ∣ z.H

/-- Queries, keys, values, results of the heads and their gradients. -/
def Tensor.IsHeads (T : Tensor) (z t : AttnDims) : Prop := T.shape = [z.D, z.S, z.B, z.H] ∧ T.basetile = [t.D, t.S, t.B, t.H]
/-- Scores and weights: position of the key, position of the query, batch, head. -/
def Tensor.IsScores (T : Tensor) (z t : AttnDims) : Prop := T.shape = [z.S, z.S, z.B, z.H] ∧ T.basetile = [t.S, t.S, t.B, t.H]
/-- The mask. -/
def Tensor.IsMask (T : Tensor) (z t : AttnDims) : Prop := T.shape = [z.S, z.S] ∧ T.basetile = [t.S, t.S]
/-- Maxima and sums of exponents over the positions of the keys. -/
def Tensor.IsPairs (T : Tensor) (z t : AttnDims) : Prop := T.shape = [2, z.S, z.B, z.H] ∧ T.basetile = [2, t.S, t.B, t.H]
/-- Sums over the positions of the keys. -/
def Tensor.IsSums (T : Tensor) (z t : AttnDims) : Prop := T.shape = [z.S, z.B, z.H] ∧ T.basetile = [t.S, t.B, t.H]

/-- The operation is accepted and all its tasks succeed, from the memory `s` to the memory `s'`. -/
def Exec (async : M (List (Task1 α))) (s s' : Store α) : Prop := ∃ ts, async = .ok ts ∧ runAll1 ts s = .ok s'

/-- `s''` has the tiles of the tensors `Ts` from `s'` and everything else from `s`. -/
def Merge (Ts : List Tensor) (s s' s'' : Store α) : Prop :=
  (∀ T ∈ Ts, ∀ i, i < T.ntiles → s'' (T.id, i) = s' (T.id, i)) ∧ ∀ k : Handle, (∀ T ∈ Ts, ¬ (k.1 = T.id ∧ k.2 < T.ntiles)) → s'' k = s k

/-- The scores by separate operations: `tmp = scale * K' * Q`, masked. -/
def unfusedScores [FP α] (asBool : α → Bool) (ninf scale : α) (Q K mask tmp : Tensor) : List (M (List (Task1 α))) := [
  gemmAsync scale .trans K .noTrans Q 0 tmp 1 2 false,
  maskScalarAsync asBool mask ninf tmp 2]

/-- What `flash_maxsumexp` stands for. -/
def unfusedMaxsumexp [FP α] (asBool : α → Bool) (ninf scale : α) (Q K mask maxsumexp tmp : Tensor) : List (M (List (Task1 α))) :=
  unfusedScores asBool ninf scale Q K mask tmp ++ [maxsumexpAsync tmp maxsumexp 0 false]

/-- The weights by separate operations. -/
def unfusedWeights [FP α] (asBool : α → Bool) (ninf scale : α) (Q K mask maxsumexp tmp : Tensor) : List (M (List (Task1 α))) :=
  unfusedScores asBool ninf scale Q K mask tmp ++ [softmaxInplaceAsync maxsumexp 1 tmp 0]

/-- What `flash_softmax_gemm` stands for. -/
def unfusedSoftmaxGemm [FP α] (asBool : α → Bool) (ninf scale : α) (Q K V mask maxsumexp dst tmp : Tensor) : List (M (List (Task1 α))) :=
  unfusedWeights asBool ninf scale Q K mask maxsumexp tmp ++ [clearAsync dst, gemmAsync 1 .noTrans V .noTrans tmp 1 dst 1 2 false]

/-- What `flash_softmax_gemm_backward` stands for. -/
def unfusedBackward [FP α] (asBool : α → Bool) (ninf scale : α) (Q dQ K dK V dV mask maxsumexp dst_grad tmp tmp_grad tmp_sumprod_slice : Tensor) :
    List (M (List (Task1 α))) :=
  unfusedWeights asBool ninf scale Q K mask maxsumexp tmp ++ [
    clearAsync dV, gemmAsync 1 .noTrans dst_grad .trans tmp 1 dV 1 2 false,
    gemmAsync 1 .trans V .noTrans dst_grad 0 tmp_grad 1 2 false,
    sumprodSliceAsync 1 tmp_grad tmp 1 tmp_sumprod_slice 0 false,
    addSliceAsync (-1) tmp_sumprod_slice 1 tmp_grad 0,
    prodAsync tmp tmp_grad,
    maskScalarAsync asBool mask 0 tmp_grad 2,
    clearAsync dQ, gemmAsync scale .noTrans K .noTrans tmp_grad 1 dQ 1 2 false,
    clearAsync dK, gemmAsync scale .noTrans Q .trans tmp_grad 1 dK 1 2 false]

/-- The arguments of `flash_softmax_gemm_backward`. -/
structure FlashBwd where
  Q : Tensor
  dQ : Tensor
  K : Tensor
  dK : Tensor
  V : Tensor
  dV : Tensor
  mask : Tensor
  mse : Tensor
  dA : Tensor
  tmp : Tensor
  tmpGrad : Tensor
  sps : Tensor

/-- All of them. -/
def FlashBwd.tensors (F : FlashBwd) : List Tensor := [F.Q, F.K, F.V, F.mask, F.mse, F.dA, F.tmp, F.tmpGrad, F.sps, F.dQ, F.dK, F.dV]

/-- Shapes and tiles fit. -/
structure FlashBwd.Fits (F : FlashBwd) (z t : AttnDims) : Prop where
  heads : ∀ T ∈ [F.Q, F.dQ, F.K, F.dK, F.V, F.dV, F.dA], T.IsHeads z t
  mask : F.mask.IsMask z t
  mse : F.mse.IsPairs z t
  tmp : F.tmp.IsScores z t
  tmpGrad : F.tmpGrad.IsScores z t
  sps : F.sps.IsSums z t
  tiles : FlashTiles z t
  wf : ∀ T ∈ F.tensors, T.WF
  ids : (F.tensors.map Tensor.id).Nodup

/-- `v` holds, for each position of the query, element of the batch and head, the largest score `x` (entry 0) and the sum of the exponents of the scores relative to it
(entry 1) over the positions of the keys. -/
def IsMaxSum (z : AttnDims) (x v : List Nat → ℝ) : Prop := ∀ I, InBox [z.S, z.B, z.H] I →
  (∃ l, l < z.S ∧ v (0 :: I) = x (l :: I)) ∧ (∀ l, l < z.S → x (l :: I) ≤ v (0 :: I)) ∧ v (1 :: I) = ∑ l ∈ Finset.range z.S, Real.exp (x (l :: I) - v (0 :: I))

/-- `dq`, `dk`, `dv` are the gradients of the results of the heads with respect to queries, keys and values: along all differentiable curves of these the results of the
heads are differentiable and the derivative of their scalar product with `da` is the sum of the scalar products of the gradients with the velocities. -/
def IsHeadsGrad (z : AttnDims) (allowed : List Nat → Bool) (val : ℝ) (q k v da dq dk dv : List Nat → ℝ) : Prop :=
  ∀ (cq ck cv : ℝ → List Nat → ℝ) (q' k' v' : List Nat → ℝ),
    (cq 0 = q ∧ ∀ J ∈ box [z.D, z.S, z.B, z.H], HasDerivAt (fun t => cq t J) (q' J) 0) →
    (ck 0 = k ∧ ∀ J ∈ box [z.D, z.S, z.B, z.H], HasDerivAt (fun t => ck t J) (k' J) 0) →
    (cv 0 = v ∧ ∀ J ∈ box [z.D, z.S, z.B, z.H], HasDerivAt (fun t => cv t J) (v' J) 0) →
    ∃ D' : List Nat → ℝ, (∀ I ∈ box [z.D, z.S, z.B, z.H],
        HasDerivAt (fun t => attnHeads z.S (cv t) (attnWeights z.S (attnMasked allowed val (attnScore z.D (ck t) (cq t)))) I) (D' I) 0) ∧
      ∑ I ∈ box [z.D, z.S, z.B, z.H], da I * D' I = ∑ J ∈ box [z.D, z.S, z.B, z.H], dq J * q' J + ∑ J ∈ box [z.D, z.S, z.B, z.H], dk J * k' J +
        ∑ J ∈ box [z.D, z.S, z.B, z.H], dv J * v' J

end NNTile
