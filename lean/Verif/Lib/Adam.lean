import Verif.Model.Adam
import Verif.Spec.Adam
import Verif.Lib.Schedule
import Verif.Lib.Elementwise
import Verif.Lib.RealFP
import Verif.Lib.Proj
import Verif.Lib.Puts
/-! Lemmas about the optimizer steps. -/
namespace NNTile
variable {α : Type}

theorem matrixShapeOf_inj {S S' : List Nat} (h : Pos S) (h' : Pos S') (e : matrixShapeOf S = matrixShapeOf S') : S = S' := by
  have hl : S.length = S'.length := by
    have := congrArg List.length e
    simpa [matrixShapeOf] using this
  have hd : ∀ i, i ≤ S.length → (S.drop i).prod = (S'.drop i).prod := by
    intro i hi
    have := congrArg (fun l => (l.getD i (0, 0)).2) e
    simp only [matrixShapeOf, List.getD_eq_getElem?_getD, List.getElem?_map] at this
    rw [List.getElem?_range (by omega), List.getElem?_range (by omega)] at this
    simpa using this
  clear e
  induction S generalizing S' with
  | nil => cases S' with
    | nil => rfl
    | cons => simp at hl
  | cons a S ih => cases S' with
    | nil => simp at hl
    | cons a' S' =>
      have e := ih (S' := S') (fun x hx => h x (by simp [hx])) (fun x hx => h' x (by simp [hx])) (by simpa using hl)
        (fun i hi => by simpa using hd (i + 1) (by simpa using hi))
      subst e
      have e0 := hd 0 (by simp)
      have : Pos S := fun x hx => h x (by simp [hx])
      have hp := this.prod
      simp only [List.drop_zero, List.prod_cons] at e0
      rw [Nat.eq_of_mul_eq_mul_right hp e0]

/-- Tasks that update the tiles number `i` of three tensors, `i < n`. -/
theorem runAll_three {g m v p n : Nat} (hgm : g ≠ m) (hgv : g ≠ v) (hgp : g ≠ p) (hmv : m ≠ v) (hmp : m ≠ p) (hvp : v ≠ p)
    {mode : WMode} {task : Nat → Task α} {s : Store α} {fm fv fp : Nat → Buf α}
    (hr : ∀ i, i < n → (task i).reads = [(g, i)])
    (hw : ∀ i, i < n → (task i).writes = [((m, i), mode), ((v, i), mode), ((p, i), .RW)])
    (hrun : ∀ i, i < n → (task i).run [s (g, i)] [s.view ((m, i), mode), s.view ((v, i), mode), s (p, i)] = .ok [fm i, fv i, fp i]) :
    ∃ s', runAll ((List.range n).flatMap (fun i => [task i])) s = .ok s' ∧
      (∀ i, i < n → s' (m, i) = fm i ∧ s' (v, i) = fv i ∧ s' (p, i) = fp i) ∧
      ∀ h : Handle, ¬ (h.2 < n ∧ (h.1 = m ∨ h.1 = v ∨ h.1 = p)) → s' h = s h := by
  induction n with
  | zero => exact ⟨s, rfl, by simp, by simp⟩
  | succ n ih =>
    obtain ⟨s1, e1, e2, e3⟩ := ih (fun i hi => hr i (by omega)) (fun i hi => hw i (by omega)) (fun i hi => hrun i (by omega))
    have k1 : s1 (g, n) = s (g, n) := e3 _ (by simp)
    have k2 : s1 (m, n) = s (m, n) := e3 _ (by simp)
    have k3 : s1 (v, n) = s (v, n) := e3 _ (by simp)
    have k4 : s1 (p, n) = s (p, n) := e3 _ (by simp)
    have hx : (task n).exec s1 = .ok (s1.setAll [(m, n), (v, n), (p, n)] [fm n, fv n, fp n]) := by
      have ho : (task n).outs = [(m, n), (v, n), (p, n)] := by simp [Task.outs, hw n (by omega)]
      rw [Task.exec, if_neg]
      · have := hrun n (by omega)
        rw [hr n (by omega), hw n (by omega), ho]
        simp only [List.map_cons, List.map_nil]
        rw [k1, view_congr (s' := s1) (s := s) k2, view_congr (s' := s1) (s := s) k3, show s1.view ((p, n), .RW) = s (p, n) from k4, this]
        rfl
      · rw [ho, hr n (by omega)]
        simp [hmv, hmp, hvp, hgm, hgv, hgp]
    refine ⟨s1.setAll [(m, n), (v, n), (p, n)] [fm n, fv n, fp n], ?_, ?_, ?_⟩
    · rw [List.range_succ, List.flatMap_append, runAll_append, e1, M.bind_ok]
      simp only [List.flatMap_cons, List.flatMap_nil, List.append_nil, runAll, hx]
      rfl
    · intro i hi
      by_cases hin : i = n
      · subst hin
        simp [Store.setAll, hmv.symm, hmp.symm, hvp.symm]
      · have := e2 i (by omega)
        simp only [Store.setAll, Prod.mk.injEq, hin, and_false, if_false]
        exact this
    · intro h hh
      rw [setAll_not_mem]
      · exact e3 h (fun hc => hh ⟨by omega, hc.2⟩)
      · intro hc
        apply hh
        simp only [List.mem_cons, List.not_mem_nil, or_false] at hc
        rcases hc with rfl | rfl | rfl <;> simp

/-- What the loop computes for one element: new first moment, second moment, parameter. -/
def adamElem [FP α] (prep : α → α → α × α) (num_iter : Int) (beta_1 beta_2 eps lr : α) (g m v p : α) : α × α × α :=
  let alpha := lr / (1 - FP.pow beta_1 (FP.ofIndex num_iter))
  let beta := 1 / FP.sqrt (1 - FP.pow beta_2 (FP.ofIndex num_iter))
  let q := prep p g
  let f := if num_iter = 1 then (1 - beta_1) * q.2 else beta_1 * m + (1 - beta_1) * q.2
  let s := if num_iter = 1 then FP.sqrt (1 - beta_2) * FP.fabs q.2 else FP.hypot (FP.sqrt beta_2 * v) (FP.sqrt (1 - beta_2) * q.2)
  (f, s, q.1 - alpha * f / (s * beta + eps))

/-- The loop. In the first iteration the contents of the moments do not matter. -/
theorem adamLoop_ok [FP α] {prep : α → α → α × α} {num_iter : Int} {n : Nat} {beta_1 beta_2 eps lr : α} {grad : Buf α} {b : AdamBufs α}
    {g m v p : Nat → α} (hgs : grad.size = n) (hms : b.first_moment.size = n) (hvs : b.second_moment.size = n) (hps : b.p.size = n)
    (hg : ∀ i, i < n → grad.data i = some (g i)) (hp : ∀ i, i < n → b.p.data i = some (p i))
    (hm : num_iter ≠ 1 → ∀ i, i < n → b.first_moment.data i = some (m i))
    (hv : num_iter ≠ 1 → ∀ i, i < n → b.second_moment.data i = some (v i)) :
    ∃ b', adamLoop prep num_iter n beta_1 beta_2 eps lr grad b = .ok b' ∧
      b'.first_moment.size = n ∧ b'.second_moment.size = n ∧ b'.p.size = n ∧
      ∀ i, i < n → b'.first_moment.data i = some (adamElem prep num_iter beta_1 beta_2 eps lr (g i) (m i) (v i) (p i)).1 ∧
        b'.second_moment.data i = some (adamElem prep num_iter beta_1 beta_2 eps lr (g i) (m i) (v i) (p i)).2.1 ∧
        b'.p.data i = some (adamElem prep num_iter beta_1 beta_2 eps lr (g i) (m i) (v i) (p i)).2.2 := by
  let E : Nat → α × α × α := fun i => adamElem prep num_iter beta_1 beta_2 eps lr (g i) (m i) (v i) (p i)
  let st : Nat → AdamBufs α := fun k =>
    ⟨⟨n, fun j => if j < k then some (E j).1 else b.first_moment.data j⟩,
     ⟨n, fun j => if j < k then some (E j).2.1 else b.second_moment.data j⟩,
     ⟨n, fun j => if j < k then some (E j).2.2 else b.p.data j⟩⟩
  have h0 : st 0 = b := by
    obtain ⟨a, c, d⟩ := b
    simp only [st, Nat.not_lt_zero, if_false]
    cases a; cases c; cases d
    simp only at hms hvs hps
    subst hms
    simp [hvs, hps]
  have hput : ∀ (k : Nat) (d : Nat → Option α) (f : Nat → Option α), (fun j => if j = k then f k else if j < k then f j else d j)
      = fun j => if j < k + 1 then f j else d j := by
    intro k d f
    funext j
    by_cases hj : j = k
    · subst hj; simp
    · by_cases hj' : j < k
      · simp [hj, hj', show j < k + 1 by omega]
      · simp [hj, hj', show ¬ j < k + 1 by omega]
  have hl : adamLoop prep num_iter n beta_1 beta_2 eps lr grad b = .ok (st n) := by
    rw [adamLoop]
    apply forN_eq st h0
    intro i hi
    have rp : (st i).p.rd i = .ok (p i) := Buf.rd_ok hi (by simp [st, hp i hi])
    have rg : grad.rd i = .ok (g i) := Buf.rd_ok (by omega) (hg i hi)
    have wm : ∀ x, (st i).first_moment.wr i x = .ok ⟨n, fun j => if j = i then some x else (st i).first_moment.data j⟩ :=
      fun x => Buf.wr_ok x hi
    have wv : ∀ x, (st i).second_moment.wr i x = .ok ⟨n, fun j => if j = i then some x else (st i).second_moment.data j⟩ :=
      fun x => Buf.wr_ok x hi
    have wp : ∀ x, (st i).p.wr i x = .ok ⟨n, fun j => if j = i then some x else (st i).p.data j⟩ :=
      fun x => Buf.wr_ok x hi
    have hst : st (i + 1) = ⟨⟨n, fun j => if j = i then some (E i).1 else (st i).first_moment.data j⟩,
        ⟨n, fun j => if j = i then some (E i).2.1 else (st i).second_moment.data j⟩,
        ⟨n, fun j => if j = i then some (E i).2.2 else (st i).p.data j⟩⟩ := by
      simp only [st]
      rw [hput i _ (fun j => some (E j).1), hput i _ (fun j => some (E j).2.1), hput i _ (fun j => some (E j).2.2)]
    rw [rp, M.bind_ok, rg, M.bind_ok, hst]
    by_cases h1 : num_iter = 1
    · simp only [h1, if_true, wm, wv, wp, M.bind_ok, E, adamElem]
    · have rm : (st i).first_moment.rd i = .ok (m i) := Buf.rd_ok hi (by simp [st, hm h1 i hi])
      have rv : (st i).second_moment.rd i = .ok (v i) := Buf.rd_ok hi (by simp [st, hv h1 i hi])
      simp only [h1, if_false, rm, rv, wm, wv, wp, M.bind_ok, E, adamElem]
  refine ⟨st n, hl, rfl, rfl, rfl, ?_⟩
  intro i hi
  simp [st, hi, E]

/-- Contents of tile number `i`. -/
theorem Tensor.Holds.dataL {T : Tensor} {s : Store α} {x : List Nat → α} (h : T.Holds s x) (hT : T.WF) {i : Nat} (hi : i < T.ntiles)
    {j : Nat} (hj : j < (T.tshapeL i).prod) :
    (s (T.id, i)).data j = some (x (globIdx T.basetile (T.tindex i) (unlin (T.tshapeL i) j))) := by
  have := h.data hT (T.tindex_inBox i) (j := j) hj
  rwa [lin_tindex hi] at this

/-- Conversely. -/
theorem Tensor.holds_of_tiles {T : Tensor} {s : Store α} {x : List Nat → α} (hT : T.WF)
    (h : ∀ i, i < T.ntiles → ∀ j, j < (T.tshapeL i).prod →
      (s (T.id, i)).data j = some (x (globIdx T.basetile (T.tindex i) (unlin (T.tshapeL i) j)))) : T.Holds s x := by
  intro I hI
  have ht := hT.tileIdx_inBox hI
  have hl := hT.locIdx_inBox hI
  have := h (lin T.grid (tileIdx T.basetile I)) (lin_lt ht) (lin (T.tshape (tileIdx T.basetile I)) (locIdx T.basetile I))
    (by rw [Tensor.tshapeL_lin ht]; exact lin_lt hl)
  rw [Tensor.tshapeL_lin ht, tindex_lin ht, unlin_lin hl] at this
  rw [Tensor.get, Tensor.hOf, Tensor.oOf, this, globIdx_tile_loc (by rw [hI.length, hT.2.2])]

section
variable {grad m v p : Tensor} {s : Store α}

theorem AdamFit.same {T p : Tensor} (h : T.Like p) : T.grid = p.grid ∧ T.ntiles = p.ntiles ∧ (∀ i, T.tshapeL i = p.tshapeL i) ∧ (∀ i, T.tindex i = p.tindex i) := by
  obtain ⟨-, a, b⟩ := h
  simp [Tensor.grid, Tensor.ntiles, Tensor.tshapeL, Tensor.tshape, Tensor.tindex, a, b]

/-- All of the tasks of one step. -/
theorem adamTensor_run [FP α] {codelet : String} {kernel : AdamKernel α} {prep : α → α → α × α} {num_iter : Int} {beta_1 beta_2 eps lr weight_decay : α}
    (hk : ∀ n g b, kernel num_iter n beta_1 beta_2 eps lr weight_decay g b = adamLoop prep num_iter n beta_1 beta_2 eps lr g b)
    (hf : AdamFit grad m v p) (hgr : grad.Ready s) (hmr : m.Ready s) (hvr : v.Ready s) (hpr : p.Ready s) {xg xm xv xp : List Nat → α}
    (hg : grad.Holds s xg) (hp : p.Holds s xp) (hm : num_iter ≠ 1 → m.Holds s xm) (hv : num_iter ≠ 1 → v.Holds s xv) :
    ∃ tasks s', adamTensor codelet kernel num_iter beta_1 beta_2 eps lr weight_decay grad m v p = .ok tasks ∧ runAll tasks s = .ok s' ∧
      m.Holds s' (fun I => (adamElem prep num_iter beta_1 beta_2 eps lr (xg I) (xm I) (xv I) (xp I)).1) ∧
      v.Holds s' (fun I => (adamElem prep num_iter beta_1 beta_2 eps lr (xg I) (xm I) (xv I) (xp I)).2.1) ∧
      p.Holds s' (fun I => (adamElem prep num_iter beta_1 beta_2 eps lr (xg I) (xm I) (xv I) (xp I)).2.2) ∧
      OnlyChanged [m.id, v.id, p.id] s s' ∧ m.Ready s' ∧ v.Ready s' ∧ p.Ready s' := by
  obtain ⟨ga, gb, gc, gd⟩ := AdamFit.same hf.grad_like
  obtain ⟨ma, mb, mc, md⟩ := AdamFit.same hf.m_like
  obtain ⟨va, vb, vc, vd⟩ := AdamFit.same hf.v_like
  have gbt := hf.grad_like.2.2
  have mbt := hf.m_like.2.2
  have vbt := hf.v_like.2.2
  let mode : WMode := if num_iter = 1 then .W else .RW
  let task : Nat → Task α := fun i => submitAdam codelet kernel num_iter (p.tshapeL i).prod beta_1 beta_2 eps lr weight_decay
    (grad.id, i) (m.id, i) (v.id, i) (p.id, i)
  have hsz : ∀ a : Handle, (s.view (a, mode)).size = (s a).size := by
    intro a
    simp only [mode]
    split <;> rfl
  have hex : ∀ i, i < p.ntiles → ∃ b' : AdamBufs α,
      (task i).run [s (grad.id, i)] [s.view ((m.id, i), mode), s.view ((v.id, i), mode), s (p.id, i)] = .ok [b'.first_moment, b'.second_moment, b'.p] ∧
      b'.first_moment.size = (p.tshapeL i).prod ∧ b'.second_moment.size = (p.tshapeL i).prod ∧ b'.p.size = (p.tshapeL i).prod ∧
      ∀ j, j < (p.tshapeL i).prod →
        b'.first_moment.data j = some (adamElem prep num_iter beta_1 beta_2 eps lr (xg (globIdx p.basetile (p.tindex i) (unlin (p.tshapeL i) j)))
          (xm (globIdx p.basetile (p.tindex i) (unlin (p.tshapeL i) j))) (xv (globIdx p.basetile (p.tindex i) (unlin (p.tshapeL i) j)))
          (xp (globIdx p.basetile (p.tindex i) (unlin (p.tshapeL i) j)))).1 ∧
        b'.second_moment.data j = some (adamElem prep num_iter beta_1 beta_2 eps lr (xg (globIdx p.basetile (p.tindex i) (unlin (p.tshapeL i) j)))
          (xm (globIdx p.basetile (p.tindex i) (unlin (p.tshapeL i) j))) (xv (globIdx p.basetile (p.tindex i) (unlin (p.tshapeL i) j)))
          (xp (globIdx p.basetile (p.tindex i) (unlin (p.tshapeL i) j)))).2.1 ∧
        b'.p.data j = some (adamElem prep num_iter beta_1 beta_2 eps lr (xg (globIdx p.basetile (p.tindex i) (unlin (p.tshapeL i) j)))
          (xm (globIdx p.basetile (p.tindex i) (unlin (p.tshapeL i) j))) (xv (globIdx p.basetile (p.tindex i) (unlin (p.tshapeL i) j)))
          (xp (globIdx p.basetile (p.tindex i) (unlin (p.tshapeL i) j)))).2.2 := by
    intro i hi
    obtain ⟨b', e1, e2, e3, e4, e5⟩ := adamLoop_ok (prep := prep) (num_iter := num_iter) (n := (p.tshapeL i).prod) (beta_1 := beta_1)
      (beta_2 := beta_2) (eps := eps) (lr := lr) (grad := s (grad.id, i)) (b := ⟨s.view ((m.id, i), mode), s.view ((v.id, i), mode), s (p.id, i)⟩)
      (g := fun j => xg (globIdx p.basetile (p.tindex i) (unlin (p.tshapeL i) j)))
      (m := fun j => xm (globIdx p.basetile (p.tindex i) (unlin (p.tshapeL i) j)))
      (v := fun j => xv (globIdx p.basetile (p.tindex i) (unlin (p.tshapeL i) j)))
      (p := fun j => xp (globIdx p.basetile (p.tindex i) (unlin (p.tshapeL i) j)))
      (by rw [hgr.2 i (by omega), gc])
      (by simp only [hsz]; rw [hmr.2 i (by omega), mc])
      (by simp only [hsz]; rw [hvr.2 i (by omega), vc])
      (hpr.2 i hi)
      (by
        intro j hj
        have := hg.dataL hgr.1 (i := i) (by omega) (j := j) (by rw [gc]; exact hj)
        rwa [gc, gd, gbt] at this)
      (by intro j hj; exact hp.dataL hpr.1 hi hj)
      (by
        intro h1 j hj
        have := (hm h1).dataL hmr.1 (i := i) (by omega) (j := j) (by rw [mc]; exact hj)
        rw [mc, md, mbt] at this
        simp only [mode, h1, if_false]
        exact this)
      (by
        intro h1 j hj
        have := (hv h1).dataL hvr.1 (i := i) (by omega) (j := j) (by rw [vc]; exact hj)
        rw [vc, vd, vbt] at this
        simp only [mode, h1, if_false]
        exact this)
    refine ⟨b', ?_, e2, e3, e4, e5⟩
    simp only [task, submitAdam, hk, e1, M.bind_ok]
  have hne : Nonempty (AdamBufs α) := ⟨⟨Buf.undef 0, Buf.undef 0, Buf.undef 0⟩⟩
  choose! B h1 h2 h3 h4 h5 using hex
  obtain ⟨s', r1, r2, r3⟩ := runAll_three (g := grad.id) (m := m.id) (v := v.id) (p := p.id) (n := p.ntiles) hf.grad_m hf.grad_v hf.grad_like.1
    hf.m_v hf.m_like.1 hf.v_like.1 (mode := mode) (task := task) (s := s) (fm := fun i => (B i).first_moment)
    (fv := fun i => (B i).second_moment) (fp := fun i => (B i).p) (fun i _ => rfl) (fun i _ => rfl) h1
  refine ⟨_, s', ?_, r1, ?_, ?_, ?_, ?_, ⟨hmr.1, ?_⟩, ⟨hvr.1, ?_⟩, ⟨hpr.1, ?_⟩⟩
  · rw [adamTensor, throwIf_neg (by simp [hf.grad_like.2.1]), M.bind_ok, throwIf_neg (by simp [hf.m_like.2.1]), M.bind_ok,
      throwIf_neg (by simp [hf.v_like.2.1]), M.bind_ok]
    apply forTasks_ok
    intro i hi
    rw [Tensor.handleL_ok hi, M.bind_ok, Tensor.handleL_ok (by omega), M.bind_ok, Tensor.handleL_ok (by omega), M.bind_ok,
      Tensor.handleL_ok (by omega), M.bind_ok]
  · apply Tensor.holds_of_tiles hmr.1
    intro i hi j hj
    rw [mc] at hj
    rw [mb] at hi
    rw [(r2 i hi).1, (h5 i hi j hj).1, mc, md, mbt]
  · apply Tensor.holds_of_tiles hvr.1
    intro i hi j hj
    rw [vc] at hj
    rw [vb] at hi
    rw [(r2 i hi).2.1, (h5 i hi j hj).2.1, vc, vd, vbt]
  · apply Tensor.holds_of_tiles hpr.1
    intro i hi j hj
    rw [(r2 i hi).2.2, (h5 i hi j hj).2.2]
  · intro h hh
    apply r3
    simp only [List.mem_cons, List.not_mem_nil, or_false, not_or] at hh
    rintro ⟨-, h' | h' | h'⟩
    · exact hh.1 h'
    · exact hh.2.1 h'
    · exact hh.2.2 h'
  · intro i hi
    rw [(r2 i (by omega)).1, h2 i (by omega), mc]
  · intro i hi
    rw [(r2 i (by omega)).2.1, h3 i (by omega), vc]
  · intro i hi
    rw [(r2 i hi).2.2, h4 i hi]

end

end NNTile
