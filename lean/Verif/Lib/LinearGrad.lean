import Verif.Lib.Linear
/-!
# Gradients of the linear layer
-/
namespace NNTile
open Finset

theorem sum_box_opCat (tx : TransOp) (P Q : List Nat) (F : List Nat → ℝ) :
    ∑ Z ∈ box (opCat tx P Q []), F Z = ∑ I ∈ box P, ∑ J ∈ box Q, F (opCat tx I J []) := by
  cases tx with
  | noTrans => simp [sum_box_append]
  | trans =>
    simp only [opCat_tr, List.append_nil, sum_box_append]
    rw [sum_comm]

theorem take_box {M : List Nat} {I J : List Nat} (h : I ∈ box M) : (I ++ J).take M.length = I := by
  rw [← box_length h, List.take_left]
theorem drop_box {M : List Nat} {I J : List Nat} (h : I ∈ box M) : (I ++ J).drop M.length = J := by
  rw [← box_length h, List.drop_left]

variable {tx : TransOp} {M K N : List Nat} {x w b dy g : List Nat → ℝ}

theorem linear_grad_w_L (hg : ∀ k ∈ box K, ∀ J ∈ box N, g (k ++ J) = ∑ I ∈ box M, x (opCat tx I k []) * dy (I ++ J)) :
    IsGrad (K ++ N) (M ++ N) (fun w => linearOut .L tx M.length K x w b) w dy g := by
  refine isGrad_of_affine (fun h Z => ∑ k ∈ box K, x (opCat tx (Z.take M.length) k []) * h (k ++ Z.drop M.length)) ?_ ?_
  · intro h t Z _
    simp only [linearOut, mul_add, sum_add_distrib, mul_sum]
    have : ∀ k, x (opCat tx (Z.take M.length) k []) * (t * h (k ++ Z.drop M.length)) =
      t * (x (opCat tx (Z.take M.length) k []) * h (k ++ Z.drop M.length)) := fun k => by ring
    simp only [this]; ring
  · intro h
    rw [sum_box_append, sum_box_append]
    have e : ∀ I ∈ box M, ∀ J ∈ box N, dy (I ++ J) * ∑ k ∈ box K, x (opCat tx ((I ++ J).take M.length) k []) * h (k ++ (I ++ J).drop M.length) =
        ∑ k ∈ box K, x (opCat tx I k []) * dy (I ++ J) * h (k ++ J) := by
      intro I hI J hJ
      rw [take_box hI, drop_box hI, mul_sum]
      exact sum_congr rfl fun k _ => by ring
    rw [sum_congr rfl fun I hI => sum_congr rfl fun J hJ => e I hI J hJ]
    have e2 : ∀ k ∈ box K, ∀ J ∈ box N, g (k ++ J) * h (k ++ J) = ∑ I ∈ box M, x (opCat tx I k []) * dy (I ++ J) * h (k ++ J) := by
      intro k hk J hJ
      rw [hg k hk J hJ, sum_mul]
    rw [sum_congr rfl fun I hI => sum_congr rfl fun J hJ => e2 I hI J hJ, sum_comm, sum_congr rfl fun J _ => sum_comm, sum_comm]

theorem linear_grad_w_R (hg : ∀ I ∈ box M, ∀ k ∈ box K, g (I ++ k) = ∑ J ∈ box N, dy (I ++ J) * x (opCat tx k J [])) :
    IsGrad (M ++ K) (M ++ N) (fun w => linearOut .R tx M.length K x w b) w dy g := by
  refine isGrad_of_affine (fun h Z => ∑ k ∈ box K, h (Z.take M.length ++ k) * x (opCat tx k (Z.drop M.length) [])) ?_ ?_
  · intro h t Z _
    simp only [linearOut, add_mul, sum_add_distrib, mul_sum]
    have : ∀ k, t * h (Z.take M.length ++ k) * x (opCat tx k (Z.drop M.length) []) =
      t * (h (Z.take M.length ++ k) * x (opCat tx k (Z.drop M.length) [])) := fun k => by ring
    simp only [this]; ring
  · intro h
    rw [sum_box_append, sum_box_append]
    refine sum_congr rfl fun I hI => ?_
    have e : ∀ J ∈ box N, dy (I ++ J) * ∑ k ∈ box K, h ((I ++ J).take M.length ++ k) * x (opCat tx k ((I ++ J).drop M.length) []) =
        ∑ k ∈ box K, dy (I ++ J) * x (opCat tx k J []) * h (I ++ k) := by
      intro J hJ
      rw [take_box hI, drop_box hI, mul_sum]
      exact sum_congr rfl fun k _ => by ring
    rw [sum_congr rfl e, sum_comm]
    refine sum_congr rfl fun k hk => ?_
    rw [hg I hI k hk, sum_mul]

theorem linear_grad_x_L (hg : ∀ I ∈ box M, ∀ k ∈ box K, g (opCat tx I k []) = ∑ J ∈ box N, dy (I ++ J) * w (k ++ J)) :
    IsGrad (opCat tx M K []) (M ++ N) (fun x => linearOut .L tx M.length K x w b) x dy g := by
  refine isGrad_of_affine (fun h Z => ∑ k ∈ box K, h (opCat tx (Z.take M.length) k []) * w (k ++ Z.drop M.length)) ?_ ?_
  · intro h t Z _
    simp only [linearOut, add_mul, sum_add_distrib, mul_sum]
    have : ∀ k, t * h (opCat tx (Z.take M.length) k []) * w (k ++ Z.drop M.length) =
      t * (h (opCat tx (Z.take M.length) k []) * w (k ++ Z.drop M.length)) := fun k => by ring
    simp only [this]; ring
  · intro h
    rw [sum_box_append, sum_box_opCat]
    refine sum_congr rfl fun I hI => ?_
    have e : ∀ J ∈ box N, dy (I ++ J) * ∑ k ∈ box K, h (opCat tx ((I ++ J).take M.length) k []) * w (k ++ (I ++ J).drop M.length) =
        ∑ k ∈ box K, dy (I ++ J) * w (k ++ J) * h (opCat tx I k []) := by
      intro J hJ
      rw [take_box hI, drop_box hI, mul_sum]
      exact sum_congr rfl fun k _ => by ring
    rw [sum_congr rfl e, sum_comm]
    refine sum_congr rfl fun k hk => ?_
    rw [hg I hI k hk, sum_mul]

theorem linear_grad_x_R (hg : ∀ k ∈ box K, ∀ J ∈ box N, g (opCat tx k J []) = ∑ I ∈ box M, w (I ++ k) * dy (I ++ J)) :
    IsGrad (opCat tx K N []) (M ++ N) (fun x => linearOut .R tx M.length K x w b) x dy g := by
  refine isGrad_of_affine (fun h Z => ∑ k ∈ box K, w (Z.take M.length ++ k) * h (opCat tx k (Z.drop M.length) [])) ?_ ?_
  · intro h t Z _
    simp only [linearOut, mul_add, sum_add_distrib, mul_sum]
    have : ∀ k, w (Z.take M.length ++ k) * (t * h (opCat tx k (Z.drop M.length) [])) =
      t * (w (Z.take M.length ++ k) * h (opCat tx k (Z.drop M.length) [])) := fun k => by ring
    simp only [this]; ring
  · intro h
    rw [sum_box_append, sum_box_opCat]
    have e : ∀ I ∈ box M, ∀ J ∈ box N, dy (I ++ J) * ∑ k ∈ box K, w ((I ++ J).take M.length ++ k) * h (opCat tx k ((I ++ J).drop M.length) []) =
        ∑ k ∈ box K, w (I ++ k) * dy (I ++ J) * h (opCat tx k J []) := by
      intro I hI J hJ
      rw [take_box hI, drop_box hI, mul_sum]
      exact sum_congr rfl fun k _ => by ring
    rw [sum_congr rfl fun I hI => sum_congr rfl fun J hJ => e I hI J hJ]
    have e2 : ∀ k ∈ box K, ∀ J ∈ box N, g (opCat tx k J []) * h (opCat tx k J []) = ∑ I ∈ box M, w (I ++ k) * dy (I ++ J) * h (opCat tx k J []) := by
      intro k hk J hJ
      rw [hg k hk J hJ, sum_mul]
    rw [sum_congr rfl fun I hI => sum_congr rfl fun J hJ => e2 I hI J hJ, sum_comm, sum_congr rfl fun J _ => sum_comm, sum_comm]

theorem linear_grad_b_L (hg : ∀ J ∈ box N, g J = ∑ I ∈ box M, dy (I ++ J)) :
    IsGrad N (M ++ N) (fun b => linearOut .L tx M.length K x w b) b dy g := by
  refine isGrad_of_affine (fun h Z => h (Z.drop M.length)) ?_ ?_
  · intro h t Z _
    simp only [linearOut]; ring
  · intro h
    rw [sum_box_append, sum_comm]
    refine sum_congr rfl fun J hJ => ?_
    rw [hg J hJ, sum_mul]
    exact sum_congr rfl fun I hI => by rw [drop_box hI]

theorem linear_grad_b_R (hg : ∀ I ∈ box M, g I = ∑ J ∈ box N, dy (I ++ J)) :
    IsGrad M (M ++ N) (fun b => linearOut .R tx M.length K x w b) b dy g := by
  refine isGrad_of_affine (fun h Z => h (Z.take M.length)) ?_ ?_
  · intro h t Z _
    simp only [linearOut]; ring
  · intro h
    rw [sum_box_append]
    refine sum_congr rfl fun I hI => ?_
    rw [hg I hI, sum_mul]
    exact sum_congr rfl fun J hJ => by rw [take_box hI]

/-- Sum over the elements of a fiber. -/
theorem sum_fiber_last {n : Nat} {J : List Nat} (hJ : J ∈ box [n]) :
    ∑ Z ∈ (box (M ++ [n])).filter (fun Z => fiberIdx M.length 0 Z = J), dy Z = ∑ I ∈ box M, dy (I ++ J) := by
  rw [sum_filter, sum_box_append]
  refine sum_congr rfl fun I hI => ?_
  have e : ∀ J' ∈ box [n], (if fiberIdx M.length 0 (I ++ J') = J then dy (I ++ J') else 0) = if J' = J then dy (I ++ J) else 0 := by
    intro J' hJ'
    have hl := box_length hJ'
    obtain ⟨j, rfl⟩ := List.length_eq_one_iff.1 (by simpa using hl)
    have : fiberIdx M.length 0 (I ++ [j]) = [j] := by
      simp [fiberIdx, ← box_length hI, List.getD_eq_getElem?_getD]
    rw [this]
    by_cases h : [j] = J
    · simp [← h]
    · simp [h]
  rw [sum_congr rfl e, sum_ite_eq']
  simp [hJ]

theorem sum_fiber_first {n : Nat} {I : List Nat} (hI : I ∈ box [n]) :
    ∑ Z ∈ (box ([n] ++ N)).filter (fun Z => fiberIdx 0 0 Z = I), dy Z = ∑ J ∈ box N, dy (I ++ J) := by
  rw [sum_filter, sum_box_append, sum_comm]
  refine sum_congr rfl fun J hJ => ?_
  have e : ∀ I' ∈ box [n], (if fiberIdx 0 0 (I' ++ J) = I then dy (I' ++ J) else 0) = if I' = I then dy (I ++ J) else 0 := by
    intro I' hI'
    have hl := box_length hI'
    obtain ⟨j, rfl⟩ := List.length_eq_one_iff.1 (by simpa using hl)
    have : fiberIdx 0 0 ([j] ++ J) = [j] := by
      simp [fiberIdx]
    rw [this]
    by_cases h : [j] = I
    · simp [← h]
    · simp [h]
  rw [sum_congr rfl e, sum_ite_eq']
  simp [hI]

variable {l : Linear} {s : Store ℝ}

set_option maxHeartbeats 1000000 in
theorem linear_backwardW (fit : l.Fits M K N) (hx : l.x.value.Ready s) (hyg : l.y.grad.Ready s) (hwg : l.w.grad.Ready s)
    (id1 : l.x.value.id ≠ l.w.grad.id) (id2 : l.y.grad.id ≠ l.w.grad.id) (vx : l.x.value.Holds s x) (vdy : l.y.grad.Holds s dy)
    {w0 : List Nat → ℝ} (vw0 : l.w.grad.Holds s w0) :
    ∃ g, Computes l.backwardW s l.w.grad (fun Z => w0 Z + g Z) ∧
      ∀ w b, IsGrad l.w.value.shape l.y.value.shape (fun w => linearOut l.side l.transX M.length K x w b) w dy g := by
  obtain ⟨M', K', N', hK, ht, -⟩ := fit.tile
  have hsh := fit.shape
  have hnd := fit.ndim
  have hgr := fit.grads
  simp only [List.forall_mem_cons, List.not_mem_nil, IsEmpty.forall_iff, implies_true, and_true] at hgr
  obtain ⟨⟨-, -⟩, ⟨gw1, gw2⟩, gy1, gy2⟩ := hgr
  obtain ⟨side, tx, ⟨x_, xg, xr⟩, ⟨y_, yg, yr⟩, ⟨w_, wg, wr⟩, nd, bo, redux⟩ := l
  simp only at *
  have ly := hyg.1.2.2
  have lx := hx.1.2.2
  cases side with
  | L =>
    obtain ⟨sx, sw, sy⟩ := hsh
    obtain ⟨bx, bw, by_⟩ := ht
    have hM : M'.length = M.length := by
      rw [bx, sx] at lx
      cases tx <;> simp at lx <;> omega
    have hN : N'.length = N.length := by
      rw [gy1, gy2, sy, by_] at ly
      simp at ly; omega
    cases tx with
    | noTrans =>
      have hg := gemm_nobatch (tA := .trans) (tB := .noTrans) (nd := (x_.ndim : Int) - nd) hx hyg hwg id1 id2 (M := K) (K := M) (N := N)
        (by simp [Tensor.ndim, sx, hnd]) (by simpa using sx) (by rw [gy1, sy]; simp) (by rw [gw1, sw])
        ⟨K', M', N', hM, by simpa using bx, by rw [gy2, by_]; simp, by rw [gw2, bw]⟩ 1 1 redux x dy w0 vx vdy (fun _ => vw0)
      refine ⟨fun Z => ∑ k ∈ box M, x (opCat .trans (Z.take K.length) k []) * dy (opCat .noTrans k (Z.drop K.length) []), ?_, ?_⟩
      · refine hg.congr fun Z _ => ?_
        ring
      · intro w b
        rw [sw, sy]
        refine linear_grad_w_L fun k hk J hJ => ?_
        simp [take_box hk, drop_box hk]
    | trans =>
      have hg := gemm_nobatch (tA := .noTrans) (tB := .noTrans) (nd := (x_.ndim : Int) - nd) hx hyg hwg id1 id2 (M := K) (K := M) (N := N)
        (by simp [Tensor.ndim, sx, hnd]) (by simpa using sx) (by rw [gy1, sy]; simp) (by rw [gw1, sw])
        ⟨K', M', N', hM, by simpa using bx, by rw [gy2, by_]; simp, by rw [gw2, bw]⟩ 1 1 redux x dy w0 vx vdy (fun _ => vw0)
      refine ⟨fun Z => ∑ k ∈ box M, x (opCat .noTrans (Z.take K.length) k []) * dy (opCat .noTrans k (Z.drop K.length) []), ?_, ?_⟩
      · refine hg.congr fun Z _ => ?_
        ring
      · intro w b
        rw [sw, sy]
        refine linear_grad_w_L fun k hk J hJ => ?_
        simp [take_box hk, drop_box hk]
  | R =>
    obtain ⟨sw, sx, sy⟩ := hsh
    obtain ⟨bw, bx, by_⟩ := ht
    have hN : N'.length = N.length := by
      rw [bx, sx] at lx
      cases tx <;> simp at lx <;> omega
    have hM : M'.length = M.length := by
      rw [gy1, gy2, sy, by_] at ly
      simp at ly; omega
    cases tx with
    | noTrans =>
      have hg := gemm_nobatch (tA := .noTrans) (tB := .trans) (nd := (x_.ndim : Int) - nd) hyg hx hwg id2 id1 (M := M) (K := N) (N := K)
        (by simp [Tensor.ndim, sx, hnd]) (by rw [gy1, sy]; simp) (by simpa using sx) (by rw [gw1, sw])
        ⟨M', N', K', hN, by rw [gy2, by_]; simp, by simpa using bx, by rw [gw2, bw]⟩ 1 1 redux dy x w0 vdy vx (fun _ => vw0)
      refine ⟨fun Z => ∑ k ∈ box N, dy (opCat .noTrans (Z.take M.length) k []) * x (opCat .trans k (Z.drop M.length) []), ?_, ?_⟩
      · refine hg.congr fun Z _ => ?_
        ring
      · intro w b
        rw [sw, sy]
        refine linear_grad_w_R fun I hI k hk => ?_
        simp [take_box hI, drop_box hI]
    | trans =>
      have hg := gemm_nobatch (tA := .noTrans) (tB := .noTrans) (nd := (x_.ndim : Int) - nd) hyg hx hwg id2 id1 (M := M) (K := N) (N := K)
        (by simp [Tensor.ndim, sx, hnd]) (by rw [gy1, sy]; simp) (by simpa using sx) (by rw [gw1, sw])
        ⟨M', N', K', hN, by rw [gy2, by_]; simp, by simpa using bx, by rw [gw2, bw]⟩ 1 1 redux dy x w0 vdy vx (fun _ => vw0)
      refine ⟨fun Z => ∑ k ∈ box N, dy (opCat .noTrans (Z.take M.length) k []) * x (opCat .noTrans k (Z.drop M.length) []), ?_, ?_⟩
      · refine hg.congr fun Z _ => ?_
        ring
      · intro w b
        rw [sw, sy]
        refine linear_grad_w_R fun I hI k hk => ?_
        simp [take_box hI, drop_box hI]

set_option maxHeartbeats 1000000 in
theorem linear_backwardX (fit : l.Fits M K N) (hw : l.w.value.Ready s) (hyg : l.y.grad.Ready s) (hxg : l.x.grad.Ready s)
    (id1 : l.w.value.id ≠ l.x.grad.id) (id2 : l.y.grad.id ≠ l.x.grad.id) (vw : l.w.value.Holds s w) (vdy : l.y.grad.Holds s dy)
    {x0 : List Nat → ℝ} (vx0 : l.x.grad.Holds s x0) :
    ∃ g, Computes l.backwardX s l.x.grad (fun Z => x0 Z + g Z) ∧
      ∀ x b, IsGrad l.x.value.shape l.y.value.shape (fun x => linearOut l.side l.transX M.length K x w b) x dy g := by
  obtain ⟨M', K', N', hK, ht, -⟩ := fit.tile
  have hsh := fit.shape
  have hnd := fit.ndim
  have hgr := fit.grads
  simp only [List.forall_mem_cons, List.not_mem_nil, IsEmpty.forall_iff, implies_true, and_true] at hgr
  obtain ⟨⟨gx1, gx2⟩, ⟨-, -⟩, gy1, gy2⟩ := hgr
  obtain ⟨side, tx, ⟨x_, xg, xr⟩, ⟨y_, yg, yr⟩, ⟨w_, wg, wr⟩, nd, bo, redux⟩ := l
  simp only at *
  have ly := hyg.1.2.2
  have lw := hw.1.2.2
  cases side with
  | L =>
    obtain ⟨sx, sw, sy⟩ := hsh
    obtain ⟨bx, bw, by_⟩ := ht
    have hN : N'.length = N.length := by
      rw [bw, sw] at lw
      simp at lw; omega
    have hM : M'.length = M.length := by
      rw [gy1, gy2, sy, by_] at ly
      simp at ly; omega
    cases tx with
    | noTrans =>
      have hg := gemm_nobatch (tA := .noTrans) (tB := .trans) (nd := (w_.ndim : Int) - nd) hyg hw hxg id2 id1 (M := M) (K := N) (N := K)
        (by simp [Tensor.ndim, sw, hnd]) (by rw [gy1, sy]; simp) (by simpa using sw) (by rw [gx1, sx]; simp)
        ⟨M', N', K', hN, by rw [gy2, by_]; simp, by simpa using bw, by rw [gx2, bx]; simp⟩ 1 1 redux dy w x0 vdy vw (fun _ => vx0)
      refine ⟨fun Z => ∑ k ∈ box N, dy (opCat .noTrans (Z.take M.length) k []) * w (opCat .trans k (Z.drop M.length) []), ?_, ?_⟩
      · refine hg.congr fun Z _ => ?_
        ring
      · intro w b
        rw [sx, sy]
        refine linear_grad_x_L fun I hI k hk => ?_
        simp [take_box hI, drop_box hI]
    | trans =>
      have hg := gemm_nobatch (tA := .noTrans) (tB := .trans) (nd := (w_.ndim : Int) - nd) hw hyg hxg id1 id2 (M := K) (K := N) (N := M)
        (by simp [Tensor.ndim, sw, hnd]) (by simpa using sw) (by rw [gy1, sy]; simp) (by rw [gx1, sx]; simp)
        ⟨K', N', M', hN, by simpa using bw, by rw [gy2, by_]; simp, by rw [gx2, bx]; simp⟩ 1 1 redux w dy x0 vw vdy (fun _ => vx0)
      refine ⟨fun Z => ∑ k ∈ box N, w (opCat .noTrans (Z.take K.length) k []) * dy (opCat .trans k (Z.drop K.length) []), ?_, ?_⟩
      · refine hg.congr fun Z _ => ?_
        ring
      · intro w b
        rw [sx, sy]
        refine linear_grad_x_L fun I hI k hk => ?_
        simp [take_box hk, drop_box hk, mul_comm]
  | R =>
    obtain ⟨sw, sx, sy⟩ := hsh
    obtain ⟨bw, bx, by_⟩ := ht
    have hM : M'.length = M.length := by
      rw [bw, sw] at lw
      simp at lw; omega
    have hN : N'.length = N.length := by
      rw [gy1, gy2, sy, by_] at ly
      simp at ly; omega
    cases tx with
    | noTrans =>
      have hg := gemm_nobatch (tA := .trans) (tB := .noTrans) (nd := (w_.ndim : Int) - nd) hw hyg hxg id1 id2 (M := K) (K := M) (N := N)
        (by simp [Tensor.ndim, sw, hnd]) (by simpa using sw) (by rw [gy1, sy]; simp) (by rw [gx1, sx]; simp)
        ⟨K', M', N', hM, by simpa using bw, by rw [gy2, by_]; simp, by rw [gx2, bx]; simp⟩ 1 1 redux w dy x0 vw vdy (fun _ => vx0)
      refine ⟨fun Z => ∑ k ∈ box M, w (opCat .trans (Z.take K.length) k []) * dy (opCat .noTrans k (Z.drop K.length) []), ?_, ?_⟩
      · refine hg.congr fun Z _ => ?_
        ring
      · intro w b
        rw [sx, sy]
        refine linear_grad_x_R fun k hk J hJ => ?_
        simp [take_box hk, drop_box hk]
    | trans =>
      have hg := gemm_nobatch (tA := .trans) (tB := .noTrans) (nd := (w_.ndim : Int) - nd) hyg hw hxg id2 id1 (M := N) (K := M) (N := K)
        (by simp [Tensor.ndim, sw, hnd]) (by rw [gy1, sy]; simp) (by simpa using sw) (by rw [gx1, sx]; simp)
        ⟨N', M', K', hM, by rw [gy2, by_]; simp, by simpa using bw, by rw [gx2, bx]; simp⟩ 1 1 redux dy w x0 vdy vw (fun _ => vx0)
      refine ⟨fun Z => ∑ k ∈ box M, dy (opCat .trans (Z.take N.length) k []) * w (opCat .noTrans k (Z.drop N.length) []), ?_, ?_⟩
      · refine hg.congr fun Z _ => ?_
        ring
      · intro w b
        rw [sx, sy]
        refine linear_grad_x_R fun k hk J hJ => ?_
        simp [take_box hJ, drop_box hJ, mul_comm]

theorem linear_backwardB (fit : l.Fits M K N) {b : Moments} (hb : l.b = some b) (hr : b.gradRequired = true) (hyg : l.y.grad.Ready s)
    (hy : l.y.value.WF) (hbg : b.grad.Ready s) (hid : l.y.grad.id ≠ b.grad.id) (vdy : l.y.grad.Holds s dy)
    {b0 : List Nat → ℝ} (vb0 : b.grad.Holds s b0) :
    ∃ g, Computes l.backwardB s b.grad (fun Z => b0 Z + g Z) ∧
      ∀ x w b', IsGrad b.value.shape l.y.value.shape (fun b => linearOut l.side l.transX M.length K x w b) b' dy g := by
  obtain ⟨M', K', N', hK, ht, hbt⟩ := fit.tile
  obtain ⟨hN1, hbs, hbgs⟩ := fit.bias b hb
  obtain ⟨hbb, hbgb⟩ := hbt b hb
  have hsh := fit.shape
  have hgr := fit.grads
  simp only [List.forall_mem_cons, List.not_mem_nil, IsEmpty.forall_iff, implies_true, and_true] at hgr
  obtain ⟨-, -, gy1, gy2⟩ := hgr
  obtain ⟨side, tx, ⟨x_, xg, xr⟩, ⟨y_, yg, yr⟩, ⟨w_, wg, wr⟩, nd, bo, redux⟩ := l
  simp only at *
  subst hb
  have ly := hy.2.2
  have lb := hbg.1.2.2
  rw [hbgs, hbgb, hbs, hbb] at lb
  cases side with
  | L =>
    obtain ⟨sx, sw, sy⟩ := hsh
    obtain ⟨bx, bw, by_⟩ := ht
    obtain ⟨n, rfl⟩ := List.length_eq_one_iff.1 hN1
    obtain ⟨n', rfl⟩ := List.length_eq_one_iff.1 (show N'.length = 1 by simpa [Side.biasDim] using lb)
    have hM' : M'.length = M.length := by
      rw [by_, sy] at ly
      simpa using ly
    have hf : b.grad.FiberOf yg M.length 0 := bias_fiber_last (gy1.trans sy) (gy2.trans by_) hM' (hbgs.trans hbs) (hbgb.trans hbb)
    have e : ((y_.ndim : Int) - 1) = (M.length : Int) := by simp [Tensor.ndim, sy]
    refine ⟨fun I => ∑ J ∈ (box yg.shape).filter (fun J => fiberIdx M.length 0 J = I), dy J, ?_, fun x w b' => ?_⟩
    · simp only [Linear.backwardB, whenAsync, hr, if_true, e]
      have := C15_sum_fiber hyg hbg hid hf 1 1 redux dy b0 vdy (fun _ => vb0)
      simpa using this
    · rw [hbs, sy]
      refine linear_grad_b_L fun J hJ => ?_
      simp only [gy1, sy]
      exact sum_fiber_last hJ
  | R =>
    obtain ⟨sw, sx, sy⟩ := hsh
    obtain ⟨bw, bx, by_⟩ := ht
    obtain ⟨n, rfl⟩ := List.length_eq_one_iff.1 hN1
    obtain ⟨n', rfl⟩ := List.length_eq_one_iff.1 (show M'.length = 1 by simpa [Side.biasDim] using lb)
    have hM' : N'.length = N.length := by
      rw [by_, sy] at ly
      simpa using ly
    have hf : b.grad.FiberOf yg 0 0 := bias_fiber_first (gy1.trans sy) (gy2.trans by_) hM' (hbgs.trans hbs) (hbgb.trans hbb)
    refine ⟨fun I => ∑ J ∈ (box yg.shape).filter (fun J => fiberIdx 0 0 J = I), dy J, ?_, fun x w b' => ?_⟩
    · simp only [Linear.backwardB, whenAsync, hr, if_true]
      have := C15_sum_fiber hyg hbg hid hf 1 1 redux dy b0 vdy (fun _ => vb0)
      simpa using this
    · rw [hbs, sy]
      refine linear_grad_b_R fun J hJ => ?_
      simp only [gy1, sy]
      exact sum_fiber_first hJ

end NNTile
