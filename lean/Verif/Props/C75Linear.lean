import Verif.Props.C75
import Verif.Lib.LinearGrad
/-!
# C75: backward propagation of a linear layer with rounded factors
-/
namespace NNTile
open Finset

section
variable {M K N : List Nat} {x w dy : List Nat → ℝ} {l : Linear} {s : Store ℝ}
set_option maxHeartbeats 1000000 in
theorem linear_fastW (fit : l.Fits M K N) (hx : l.x.value.Ready s) (hyg : l.y.grad.Ready s) (hwg : l.w.grad.Ready s)
    (id1 : l.x.value.id ≠ l.w.grad.id) (id2 : l.y.grad.id ≠ l.w.grad.id) (vx : l.x.value.Holds s x) (vdy : l.y.grad.Holds s dy)
    {w0 : List Nat → ℝ} (vw0 : l.w.grad.Holds s w0) (fx : l.x.value.TilesFit) (fy : l.y.grad.TilesFit) (fwg : l.w.grad.TilesFit) (tf32 : ℝ → ℝ) :
    ∃ g, Computes (l.backwardFastW true tf32) s l.w.grad (fun Z => w0 Z + g Z) ∧
      ∀ w b, IsGrad l.w.value.shape l.y.value.shape (fun w => linearOut l.side l.transX M.length K (fun I => tf32 (x I)) w b) w (fun I => tf32 (dy I)) g := by
  obtain ⟨M', K', N', hK, ht, -⟩ := fit.tile
  have hsh := fit.shape
  have hnd := fit.ndim
  have hgr := fit.grads
  simp only [List.forall_mem_cons, List.not_mem_nil, IsEmpty.forall_iff, implies_true, and_true] at hgr
  obtain ⟨⟨-, -⟩, ⟨gw1, gw2⟩, gy1, gy2⟩ := hgr
  obtain ⟨side, tx, ⟨x_, xg, xr⟩, ⟨y_, yg, yr⟩, ⟨w_, wg, wr⟩, nd, bo, redux⟩ := l
  simp only at *
  have ly := hyg.1.2.2
  have lx := hx.1.2.2
  cases side with
  | L =>
    obtain ⟨sx, sw, sy⟩ := hsh
    obtain ⟨bx, bw, by_⟩ := ht
    have hM : M'.length = M.length := by
      rw [bx, sx] at lx
      cases tx <;> simp at lx <;> omega
    have hN : N'.length = N.length := by
      rw [gy1, gy2, sy, by_] at ly
      simp at ly; omega
    cases tx with
    | noTrans =>
      have hg := gemmEx_nobatch (tA := .trans) (tB := .noTrans) (nd := (x_.ndim : Int) - nd) hx hyg hwg id1 id2 (M := K) (K := M) (N := N)
        (by simp [Tensor.ndim, sx, hnd]) (by simpa using sx) (by rw [gy1, sy]; simp) (by rw [gw1, sw])
        ⟨K', M', N', hM, by simpa using bx, by rw [gy2, by_]; simp, by rw [gw2, bw]⟩ 1 1 redux x dy w0 vx vdy (fun _ => vw0) fx fwg tf32
      refine ⟨fun Z => ∑ k ∈ box M, tf32 (x (opCat .trans (Z.take K.length) k [])) * tf32 (dy (opCat .noTrans k (Z.drop K.length) [])), ?_, ?_⟩
      · refine hg.congr fun Z _ => ?_
        ring
      · intro w b
        rw [sw, sy]
        refine linear_grad_w_L fun k hk J hJ => ?_
        simp [take_box hk, drop_box hk]
    | trans =>
      have hg := gemmEx_nobatch (tA := .noTrans) (tB := .noTrans) (nd := (x_.ndim : Int) - nd) hx hyg hwg id1 id2 (M := K) (K := M) (N := N)
        (by simp [Tensor.ndim, sx, hnd]) (by simpa using sx) (by rw [gy1, sy]; simp) (by rw [gw1, sw])
        ⟨K', M', N', hM, by simpa using bx, by rw [gy2, by_]; simp, by rw [gw2, bw]⟩ 1 1 redux x dy w0 vx vdy (fun _ => vw0) fx fwg tf32
      refine ⟨fun Z => ∑ k ∈ box M, tf32 (x (opCat .noTrans (Z.take K.length) k [])) * tf32 (dy (opCat .noTrans k (Z.drop K.length) [])), ?_, ?_⟩
      · refine hg.congr fun Z _ => ?_
        ring
      · intro w b
        rw [sw, sy]
        refine linear_grad_w_L fun k hk J hJ => ?_
        simp [take_box hk, drop_box hk]
  | R =>
    obtain ⟨sw, sx, sy⟩ := hsh
    obtain ⟨bw, bx, by_⟩ := ht
    have hN : N'.length = N.length := by
      rw [bx, sx] at lx
      cases tx <;> simp at lx <;> omega
    have hM : M'.length = M.length := by
      rw [gy1, gy2, sy, by_] at ly
      simp at ly; omega
    cases tx with
    | noTrans =>
      have hg := gemmEx_nobatch (tA := .noTrans) (tB := .trans) (nd := (x_.ndim : Int) - nd) hyg hx hwg id2 id1 (M := M) (K := N) (N := K)
        (by simp [Tensor.ndim, sx, hnd]) (by rw [gy1, sy]; simp) (by simpa using sx) (by rw [gw1, sw])
        ⟨M', N', K', hN, by rw [gy2, by_]; simp, by simpa using bx, by rw [gw2, bw]⟩ 1 1 redux dy x w0 vdy vx (fun _ => vw0) fy fwg tf32
      refine ⟨fun Z => ∑ k ∈ box N, tf32 (dy (opCat .noTrans (Z.take M.length) k [])) * tf32 (x (opCat .trans k (Z.drop M.length) [])), ?_, ?_⟩
      · refine hg.congr fun Z _ => ?_
        ring
      · intro w b
        rw [sw, sy]
        refine linear_grad_w_R fun I hI k hk => ?_
        simp [take_box hI, drop_box hI]
    | trans =>
      have hg := gemmEx_nobatch (tA := .noTrans) (tB := .noTrans) (nd := (x_.ndim : Int) - nd) hyg hx hwg id2 id1 (M := M) (K := N) (N := K)
        (by simp [Tensor.ndim, sx, hnd]) (by rw [gy1, sy]; simp) (by simpa using sx) (by rw [gw1, sw])
        ⟨M', N', K', hN, by rw [gy2, by_]; simp, by simpa using bx, by rw [gw2, bw]⟩ 1 1 redux dy x w0 vdy vx (fun _ => vw0) fy fwg tf32
      refine ⟨fun Z => ∑ k ∈ box N, tf32 (dy (opCat .noTrans (Z.take M.length) k [])) * tf32 (x (opCat .noTrans k (Z.drop M.length) [])), ?_, ?_⟩
      · refine hg.congr fun Z _ => ?_
        ring
      · intro w b
        rw [sw, sy]
        refine linear_grad_w_R fun I hI k hk => ?_
        simp [take_box hI, drop_box hI]

set_option maxHeartbeats 1000000 in
theorem linear_fastX (fit : l.Fits M K N) (hw : l.w.value.Ready s) (hyg : l.y.grad.Ready s) (hxg : l.x.grad.Ready s)
    (id1 : l.w.value.id ≠ l.x.grad.id) (id2 : l.y.grad.id ≠ l.x.grad.id) (vw : l.w.value.Holds s w) (vdy : l.y.grad.Holds s dy)
    {x0 : List Nat → ℝ} (vx0 : l.x.grad.Holds s x0) (fw : l.w.value.TilesFit) (fy : l.y.grad.TilesFit) (fxg : l.x.grad.TilesFit) (tf32 : ℝ → ℝ) :
    ∃ g, Computes (l.backwardFastX true tf32) s l.x.grad (fun Z => x0 Z + g Z) ∧
      ∀ x b, IsGrad l.x.value.shape l.y.value.shape (fun x => linearOut l.side l.transX M.length K x (fun I => tf32 (w I)) b) x (fun I => tf32 (dy I)) g := by
  obtain ⟨M', K', N', hK, ht, -⟩ := fit.tile
  have hsh := fit.shape
  have hnd := fit.ndim
  have hgr := fit.grads
  simp only [List.forall_mem_cons, List.not_mem_nil, IsEmpty.forall_iff, implies_true, and_true] at hgr
  obtain ⟨⟨gx1, gx2⟩, ⟨-, -⟩, gy1, gy2⟩ := hgr
  obtain ⟨side, tx, ⟨x_, xg, xr⟩, ⟨y_, yg, yr⟩, ⟨w_, wg, wr⟩, nd, bo, redux⟩ := l
  simp only at *
  have ly := hyg.1.2.2
  have lw := hw.1.2.2
  cases side with
  | L =>
    obtain ⟨sx, sw, sy⟩ := hsh
    obtain ⟨bx, bw, by_⟩ := ht
    have hN : N'.length = N.length := by
      rw [bw, sw] at lw
      simp at lw; omega
    have hM : M'.length = M.length := by
      rw [gy1, gy2, sy, by_] at ly
      simp at ly; omega
    cases tx with
    | noTrans =>
      have hg := gemmEx_nobatch (tA := .noTrans) (tB := .trans) (nd := (w_.ndim : Int) - nd) hyg hw hxg id2 id1 (M := M) (K := N) (N := K)
        (by simp [Tensor.ndim, sw, hnd]) (by rw [gy1, sy]; simp) (by simpa using sw) (by rw [gx1, sx]; simp)
        ⟨M', N', K', hN, by rw [gy2, by_]; simp, by simpa using bw, by rw [gx2, bx]; simp⟩ 1 1 redux dy w x0 vdy vw (fun _ => vx0) fy fxg tf32
      refine ⟨fun Z => ∑ k ∈ box N, tf32 (dy (opCat .noTrans (Z.take M.length) k [])) * tf32 (w (opCat .trans k (Z.drop M.length) [])), ?_, ?_⟩
      · refine hg.congr fun Z _ => ?_
        ring
      · intro w b
        rw [sx, sy]
        refine linear_grad_x_L fun I hI k hk => ?_
        simp [take_box hI, drop_box hI]
    | trans =>
      have hg := gemmEx_nobatch (tA := .noTrans) (tB := .trans) (nd := (w_.ndim : Int) - nd) hw hyg hxg id1 id2 (M := K) (K := N) (N := M)
        (by simp [Tensor.ndim, sw, hnd]) (by simpa using sw) (by rw [gy1, sy]; simp) (by rw [gx1, sx]; simp)
        ⟨K', N', M', hN, by simpa using bw, by rw [gy2, by_]; simp, by rw [gx2, bx]; simp⟩ 1 1 redux w dy x0 vw vdy (fun _ => vx0) fw fxg tf32
      refine ⟨fun Z => ∑ k ∈ box N, tf32 (w (opCat .noTrans (Z.take K.length) k [])) * tf32 (dy (opCat .trans k (Z.drop K.length) [])), ?_, ?_⟩
      · refine hg.congr fun Z _ => ?_
        ring
      · intro w b
        rw [sx, sy]
        refine linear_grad_x_L fun I hI k hk => ?_
        simp [take_box hk, drop_box hk, mul_comm]
  | R =>
    obtain ⟨sw, sx, sy⟩ := hsh
    obtain ⟨bw, bx, by_⟩ := ht
    have hM : M'.length = M.length := by
      rw [bw, sw] at lw
      simp at lw; omega
    have hN : N'.length = N.length := by
      rw [gy1, gy2, sy, by_] at ly
      simp at ly; omega
    cases tx with
    | noTrans =>
      have hg := gemmEx_nobatch (tA := .trans) (tB := .noTrans) (nd := (w_.ndim : Int) - nd) hw hyg hxg id1 id2 (M := K) (K := M) (N := N)
        (by simp [Tensor.ndim, sw, hnd]) (by simpa using sw) (by rw [gy1, sy]; simp) (by rw [gx1, sx]; simp)
        ⟨K', M', N', hM, by simpa using bw, by rw [gy2, by_]; simp, by rw [gx2, bx]; simp⟩ 1 1 redux w dy x0 vw vdy (fun _ => vx0) fw fxg tf32
      refine ⟨fun Z => ∑ k ∈ box M, tf32 (w (opCat .trans (Z.take K.length) k [])) * tf32 (dy (opCat .noTrans k (Z.drop K.length) [])), ?_, ?_⟩
      · refine hg.congr fun Z _ => ?_
        ring
      · intro w b
        rw [sx, sy]
        refine linear_grad_x_R fun k hk J hJ => ?_
        simp [take_box hk, drop_box hk]
    | trans =>
      have hg := gemmEx_nobatch (tA := .trans) (tB := .noTrans) (nd := (w_.ndim : Int) - nd) hyg hw hxg id2 id1 (M := N) (K := M) (N := K)
        (by simp [Tensor.ndim, sw, hnd]) (by rw [gy1, sy]; simp) (by simpa using sw) (by rw [gx1, sx]; simp)
        ⟨N', M', K', hM, by rw [gy2, by_]; simp, by simpa using bw, by rw [gx2, bx]; simp⟩ 1 1 redux dy w x0 vdy vw (fun _ => vx0) fy fxg tf32
      refine ⟨fun Z => ∑ k ∈ box M, tf32 (dy (opCat .trans (Z.take N.length) k [])) * tf32 (w (opCat .noTrans k (Z.drop N.length) [])), ?_, ?_⟩
      · refine hg.congr fun Z _ => ?_
        ring
      · intro w b
        rw [sx, sy]
        refine linear_grad_x_R fun k hk J hJ => ?_
        simp [take_box hJ, drop_box hJ, mul_comm]

end

/-- Backward propagation of a linear layer with `fp32_fast_tf32=True`: to each required gradient the layer adds the gradient of the linear function with respect to that operand, computed from the rounded
other factor and the rounded gradient of the output; for the bias nothing is rounded. Nothing but the required gradients is changed. -/
theorem C75_linear_backward {l : Linear} {M K N : List Nat} (fit : l.Fits M K N) {s : Store ℝ} (hx : l.x.value.Ready s) (hw : l.w.value.Ready s)
    (hy : l.y.value.WF) (hyg : l.y.grad.Ready s)
    (ids : l.gradIds.Nodup) (idx : l.x.value.id ∉ l.gradIds) (idw : l.w.value.id ∉ l.gradIds) (idy : l.y.grad.id ∉ l.gradIds)
    (x w dy x0 w0 b0 : List Nat → ℝ) (vx : l.x.value.Holds s x)
    (vw : l.w.value.Holds s w) (vdy : l.y.grad.Holds s dy) (vx0 : l.x.GradHolds s x0) (vw0 : l.w.GradHolds s w0) (vb0 : ∀ b ∈ l.b, b.GradHolds s b0)
    (fx : l.x.value.TilesFit) (fw : l.w.value.TilesFit) (fy : l.y.grad.TilesFit) (fxg : l.x.grad.TilesFit) (fwg : l.w.grad.TilesFit) (tf32 : ℝ → ℝ) :
    Runs (l.backwardFastAsync true tf32) s l.gradIds (fun s' => ∃ gx gw gb : List Nat → ℝ,
      l.x.GradHolds s' (fun I => x0 I + gx I) ∧ l.w.GradHolds s' (fun I => w0 I + gw I) ∧ (∀ b ∈ l.b, b.GradHolds s' (fun I => b0 I + gb I)) ∧
      ∀ bv, (l.x.gradRequired → IsGrad l.x.value.shape l.y.value.shape (fun x => linearOut l.side l.transX M.length K x (fun I => tf32 (w I)) bv) x (fun I => tf32 (dy I)) gx) ∧
        (l.w.gradRequired → IsGrad l.w.value.shape l.y.value.shape (fun w => linearOut l.side l.transX M.length K (fun I => tf32 (x I)) w bv) w (fun I => tf32 (dy I)) gw) ∧
        ∀ b ∈ l.b, b.gradRequired → IsGrad b.value.shape l.y.value.shape (fun bv => linearOut l.side l.transX M.length K x w bv) bv dy gb) := by
  unfold Linear.gradIds at *
  simp only [List.mem_append, not_or] at idx idw idy
  simp only [List.nodup_append, List.mem_append] at ids
  obtain ⟨⟨-, -, ids1⟩, -, ids2⟩ := ids
  have h1 : Runs (whenAsync l.w.gradRequired (l.backwardFastW true tf32)) s l.w.gradIds (fun s' => ∃ gw : List Nat → ℝ,
      l.w.GradHolds s' (fun I => w0 I + gw I) ∧ ∀ bv, (l.w.gradRequired → IsGrad l.w.value.shape l.y.value.shape
        (fun w => linearOut l.side l.transX M.length K (fun I => tf32 (x I)) w bv) w (fun I => tf32 (dy I)) gw)) := by
    by_cases hr : l.w.gradRequired = true
    · have hi : l.w.grad.id ∈ l.w.gradIds := by simp [Moments.gradIds, hr]
      obtain ⟨g, h1, h2⟩ := linear_fastW fit hx hyg (vw0 hr).1 (fun e => idx.1.2 (e ▸ hi)) (fun e => idy.1.2 (e ▸ hi)) vx vdy (vw0 hr).2 fx fy fwg tf32
      exact (Moments.when_runs fun _ => h1).imp (fun _ h => h) fun s' _ h => ⟨g, h, fun bv _ => h2 w bv⟩
    · rw [whenAsync, if_neg hr]
      exact Runs.skip ⟨0, fun h => absurd h hr, fun _ h => absurd h hr⟩
  refine h1.cons' (fun i hi => by simp [hi]) fun s1 c1 => ?_
  rintro ⟨gw, qw, qw'⟩
  have h2 : Runs l.backwardB s1 (l.b.toList.flatMap Moments.gradIds) (fun s' => ∃ gb : List Nat → ℝ,
      (∀ b ∈ l.b, b.GradHolds s' (fun I => b0 I + gb I)) ∧ ∀ bv, ∀ b ∈ l.b, b.gradRequired → IsGrad b.value.shape l.y.value.shape
        (fun bv => linearOut l.side l.transX M.length K x w bv) bv dy gb) := by
    cases hb : l.b with
    | none =>
      rw [Linear.backwardB, hb]
      exact Runs.skip ⟨0, by simp⟩
    | some b =>
      by_cases hr : b.gradRequired = true
      · have hi : b.grad.id ∈ l.b.toList.flatMap Moments.gradIds := by simp [hb, Moments.gradIds, hr]
        have hbw : b.grad.id ∉ l.w.gradIds := fun h => ids2 _ (Or.inr h) _ hi rfl
        have hv := vb0 b hb hr
        obtain ⟨g, h1, h2⟩ := linear_backwardB fit hb hr (c1.ready hyg idy.1.2) hy (c1.ready hv.1 hbw) (fun e => idy.2 (e ▸ hi))
          (c1.holds vdy idy.1.2) (c1.holds hv.2 hbw)
        refine h1.runs.imp (by simp [Moments.gradIds, hr]) fun s' _ h => ⟨g, ?_, ?_⟩
        · intro b' hb'
          cases hb'
          exact fun _ => ⟨h.2, h.1⟩
        · intro bv b' hb' _
          cases hb'
          exact h2 x w bv
      · rw [Linear.backwardB, hb]
        simp only [whenAsync, if_neg hr]
        refine Runs.skip ⟨0, ?_, ?_⟩
        · intro b' hb' h
          cases hb'
          exact absurd h hr
        · intro bv b' hb' h
          cases hb'
          exact absurd h hr
  refine h2.cons' (fun i hi => by simp only [List.mem_append]; exact Or.inr hi) fun s2 c2 => ?_
  rintro ⟨gb, qb, qb'⟩
  have c12 := c1.trans c2
  have h3 : Runs (whenAsync l.x.gradRequired (l.backwardFastX true tf32)) s2 l.x.gradIds (fun s' => ∃ gx : List Nat → ℝ,
      l.x.GradHolds s' (fun I => x0 I + gx I) ∧ ∀ bv, (l.x.gradRequired → IsGrad l.x.value.shape l.y.value.shape
        (fun x => linearOut l.side l.transX M.length K x (fun I => tf32 (w I)) bv) x (fun I => tf32 (dy I)) gx)) := by
    by_cases hr : l.x.gradRequired = true
    · have hi : l.x.grad.id ∈ l.x.gradIds := by simp [Moments.gradIds, hr]
      have hxn : l.x.grad.id ∉ l.w.gradIds ++ l.b.toList.flatMap Moments.gradIds := by
        rw [List.mem_append, not_or]
        exact ⟨fun h => ids1 _ hi _ h rfl, fun h => ids2 _ (Or.inl hi) _ h rfl⟩
      have hyn : l.y.grad.id ∉ l.w.gradIds ++ l.b.toList.flatMap Moments.gradIds := by
        rw [List.mem_append, not_or]; exact ⟨idy.1.2, idy.2⟩
      have hwn : l.w.value.id ∉ l.w.gradIds ++ l.b.toList.flatMap Moments.gradIds := by
        rw [List.mem_append, not_or]; exact ⟨idw.1.2, idw.2⟩
      obtain ⟨g, h1, h2⟩ := linear_fastX fit (c12.ready hw hwn) (c12.ready hyg hyn) (c12.ready (vx0 hr).1 hxn) (fun e => idw.1.1 (e ▸ hi))
        (fun e => idy.1.1 (e ▸ hi)) (c12.holds vw hwn) (c12.holds vdy hyn) (c12.holds (vx0 hr).2 hxn) fw fy fxg tf32
      exact (Moments.when_runs fun _ => h1).imp (fun _ h => h) fun s' _ h => ⟨g, h, fun bv _ => h2 x bv⟩
    · rw [whenAsync, if_neg hr]
      exact Runs.skip ⟨0, fun h => absurd h hr, fun _ h => absurd h hr⟩
  refine h3.cons' (fun i hi => by simp [hi]) fun s3 c3 => ?_
  rintro ⟨gx, qx, qx'⟩
  refine Runs.nil ⟨gx, gw, gb, qx, ?_, ?_, fun bv => ⟨qx' bv, qw' bv, qb' bv⟩⟩
  · refine (qw.changed c2 fun i hi h => ids2 _ (Or.inr hi) _ h rfl).changed c3 fun i hi h => ids1 _ h _ hi rfl
  · intro b hb
    refine (qb b hb).changed c3 fun i hi h => ids2 _ (Or.inl h) i ?_ rfl
    rw [Option.mem_def] at hb
    simpa [hb] using hi

/-! ### Example -/

example (x w b x0 w0 b0 dy : List Nat → ℝ) : ∃ s : Store ℝ,
    Computes (linearExample.forwardFastAsync true fun x => (⌊x⌋ : ℝ)) s linearExample.y.value (linearOut .L .trans 1 [7] (fun I => (⌊x I⌋ : ℝ)) (fun I => (⌊w I⌋ : ℝ)) b) ∧
    Runs (linearExample.backwardFastAsync true fun x => (⌊x⌋ : ℝ)) s [1, 5, 7] (fun s' => ∃ gb : List Nat → ℝ, Tensor.Holds ⟨7, [3], [2]⟩ s' (fun I => b0 I + gb I)) := by
  have h := storeOf_spec [(linearExample.x.value, x), (linearExample.x.grad, x0), (linearExample.y.value, fun _ => 0), (linearExample.y.grad, dy),
    (linearExample.w.value, w), (linearExample.w.grad, w0), (⟨6, [3], [2]⟩, b), (⟨7, [3], [2]⟩, b0)]
    (by simp [linearExample, Tensor.WF]) (by simp [linearExample])
  simp only [List.forall_mem_cons, List.not_mem_nil, IsEmpty.forall_iff, implies_true, and_true] at h
  obtain ⟨hx, hxg, hy, hyg, hw, hwg, hb, hbg⟩ := h
  have fit : linearExample.x.value.TilesFit ∧ linearExample.w.value.TilesFit ∧ linearExample.y.value.TilesFit ∧ linearExample.y.grad.TilesFit ∧ linearExample.x.grad.TilesFit ∧
      linearExample.w.grad.TilesFit := by
    unfold Tensor.TilesFit; decide
  obtain ⟨f1, f2, f3, f4, f5, f6⟩ := fit
  refine ⟨_, C75_linear linearExample_fits hx.1 hw.1 hy.1 (by rintro m ⟨⟩; exact ⟨hb.1, by decide⟩) (by decide) (by decide) x w b hx.2 hw.2
    (by rintro m ⟨⟩; exact hb.2) f1 f2 f3 _, ?_⟩
  have := C75_linear_backward linearExample_fits hx.1 hw.1 hy.1.1 hyg.1 (by decide) (by decide) (by decide) (by decide) x w dy x0 w0 b0 hx.2 hw.2 hyg.2
    (fun _ => hxg) (fun _ => hwg) (by rintro m ⟨⟩; exact fun _ => hbg) f1 f2 f4 f5 f6 (fun x => (⌊x⌋ : ℝ))
  refine this.imp (by decide) ?_
  rintro s' _ ⟨gx, gw, gb, -, -, h, -⟩
  exact ⟨gb, (h _ rfl rfl).2⟩

end NNTile
