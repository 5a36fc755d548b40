import Verif.Model.Transpose
import Verif.Lib.GemmTensor
/-! Lemmas about `transpose`. -/
namespace NNTile
variable {α : Type}

theorem rotate_iff {A B : List Nat} {nd : Nat} (hn : nd < A.length) (hl : B.length = A.length) :
    (∀ i, i < B.length → A.getD ((i + nd) % B.length) 0 = B.getD i 0) ↔ B = A.drop nd ++ A.take nd := by
  have hr : A.drop nd ++ A.take nd = A.rotate nd := (List.rotate_eq_drop_append_take hn.le).symm
  rw [hr]
  constructor
  · intro h
    apply List.ext_getElem
    · rw [hl, List.length_rotate]
    · intro i h1 h2
      have := h i h1
      rw [getD_eq_getElem (by rw [hl]; exact Nat.mod_lt _ (by omega)), getD_eq_getElem h1] at this
      rw [← this, List.getElem_rotate]
      simp only [hl]
  · rintro rfl i hi
    rw [getD_eq_getElem (by rw [hl]; exact Nat.mod_lt _ (by omega)), getD_eq_getElem hi, List.getElem_rotate]
    simp only [hl]

theorem transpose_check {src dst : Tensor} (hs : src.WF) (hd : dst.WF) (nd : Nat) (h1 : 0 < nd) (h2 : nd < src.ndim) (h3 : dst.ndim = src.ndim) :
    Check (forCheck dst.ndim (fun i => checkPair src dst ((i + nd) % dst.ndim) i)) (src.TransposeOf dst nd) := by
  refine (Check.forCheck (P := fun i => src.shape.getD ((i + nd) % dst.ndim) 0 = dst.shape.getD i 0 ∧
      src.basetile.getD ((i + nd) % dst.ndim) 0 = dst.basetile.getD i 0) (fun i hi =>
    checkPair_check hs hd (by rw [← h3]; exact Nat.mod_lt _ (by omega)) hi)).mono ?_
  have e1 := rotate_iff (A := src.shape) (B := dst.shape) h2 h3
  have e2 := rotate_iff (A := src.basetile) (B := dst.basetile) (nd := nd) (by rw [hs.2.2]; exact h2) (by rw [hs.2.2, hd.2.2]; exact h3)
  rw [hd.2.2] at e2
  constructor
  · intro h
    exact ⟨h1, h2, e1.1 (fun i hi => (h i hi).1), e2.1 (fun i hi => (h i hi).2)⟩
  · rintro ⟨-, -, a, b⟩ i hi
    exact ⟨e1.2 a i hi, e2.2 b i hi⟩

theorem transpose_run [FP α] {m n : Nat} {alpha : α} {src o : Buf α} {x : Nat → α} (ho : o.size = n * m) (hs : src.size = m * n)
    (hx : ∀ c, c < m * n → src.data c = some (x c)) :
    ∃ b', transposeKernel m n alpha src o = .ok b' ∧ b'.size = o.size ∧
      ∀ i j, i < m → j < n → b'.data (j + n * i) = some (alpha * x (i + m * j)) := by
  obtain ⟨b', e1, e2, e3⟩ := forN2_puts (m := n) (n := m) (o := o) (body := fun i j d => do
      let x ← src.rd (i + j*m)
      d.wr (i*n + j) (alpha * x)) ho (fun j i => alpha * x (i + m * j)) (by
    intro i j hi hj d hd he
    have hlt : i + m * j < m * n := cell2_lt hi hj
    rw [show i + j * m = i + m * j by ring, Buf.rd_ok (hs ▸ hlt) (hx _ hlt), M.bind_ok, show i * n + j = j + n * i by ring, Buf.wr_put hd])
  exact ⟨b', e1, e2, fun i j hi hj => e3 j i hj hi⟩

theorem transposeAsync_computes [FP α] {src dst : Tensor} {nd : Nat} {s : Store α} (hs : src.Ready s) (hd : dst.Ready s) (hid : src.id ≠ dst.id)
    (h : src.TransposeOf dst nd) (alpha : α) (x : List Nat → α) (hx : src.Holds s x) :
    Computes (transposeAsync alpha src dst nd) s dst
      (fun K => alpha * x (K.drop (src.ndim - nd) ++ K.take (src.ndim - nd))) := by
  obtain ⟨h0, hn, hsh, hbt⟩ := h
  have hsl := hs.1.2.2
  have hnd : dst.ndim = src.ndim := by simp only [Tensor.ndim, hsh]; simp; omega
  set P := src.shape.take nd with hP
  set Q := src.shape.drop nd with hQ
  set P' := src.basetile.take nd with hP'
  set Q' := src.basetile.drop nd with hQ'
  have lP : P'.length = P.length := by simp [P, P', hsl]
  have lQ : Q'.length = Q.length := by simp [Q, Q', hsl]
  have hPl : P.length = nd := by simp [P]; omega
  have hQl : Q.length = src.ndim - nd := by simp [Q, Tensor.ndim]
  have oS : src.IsOp .noTrans P Q [] P' Q' [] := ⟨lP, lQ, rfl, by simp [opCat, P, Q], by simp [opCat, P', Q']⟩
  have oD : dst.IsOp .trans P Q [] P' Q' [] := ⟨lP, lQ, rfl, by simp [opCat, hsh], by simp [opCat, hbt]⟩
  have pP := gridOf_pos P P'
  have pQ := gridOf_pos Q Q'
  have gP : (gridOf P P').length = P.length := gridOf_length lP
  have gQ : (gridOf Q Q').length = Q.length := gridOf_length lQ
  have hin0 : InBox (gridOf [] []) [] := trivial
  have i0 : InBox (tileShape [] [] []) [] := trivial
  have sg : src.grid = gridOf P P' ++ gridOf Q Q' := by rw [oS.grid]; simp [opCat, gridOf]
  have em : msRows src.grid nd = (gridOf P P').prod := by rw [msRows, sg, take_of_length (by rw [gP, hPl])]
  have en : msCols src.grid nd = (gridOf Q Q').prod := by rw [msCols, sg, drop_of_length (by rw [gP, hPl])]
  refine computes_tiles hd (fun t => [submitTranspose (tileShape P P' (t.drop Q.length)).prod (tileShape Q Q' (t.take Q.length)).prod alpha
    (src.id, lin src.grid (t.drop Q.length ++ t.take Q.length)) (dst.id, lin dst.grid t)]) ?_ _ ?_ ?_
  · simp only [transposeAsync, Int.toNat_natCast]
    rw [throwIf_neg (by simp only [Tensor.ndim]; omega), M.bind_ok, throwIf_neg (by simpa using hnd), M.bind_ok,
      (transpose_check hs.1 hd.1 nd h0 hn hnd).ok ⟨h0, hn, hsh, hbt⟩, M.bind_ok, em, en]
    rw [show dst.ntiles = (gridOf P P').prod * (gridOf Q Q').prod by rw [oD.ntiles]; simp [gridOf], ← flatMap_range_mul]
    apply forTasks_ok
    intro i hi
    apply forTasks_ok
    intro j hj
    have iP := unlin_inBox pP i
    have iQ := unlin_inBox pQ j
    have lp : (unlin (gridOf P P') i).length = P.length := by rw [iP.length, gP]
    have lq : (unlin (gridOf Q Q') j).length = Q.length := by rw [iQ.length, gQ]
    have hS : lin src.grid (unlin (gridOf P P') i ++ unlin (gridOf Q Q') j) = i + j * (gridOf P P').prod := by
      have := oS.lin (r := []) iP iQ
      simp only [opCat, List.append_nil] at this
      rw [this, lin_unlin hi, lin_unlin hj]
      simp only [opOff, show lin (gridOf [] []) [] = 0 from rfl]; ring
    have hD : lin dst.grid (unlin (gridOf Q Q') j ++ unlin (gridOf P P') i) = i * (gridOf Q Q').prod + j := by
      have := oD.lin (r := []) iP iQ
      simp only [opCat, List.append_nil] at this
      rw [this, lin_unlin hi, lin_unlin hj]
      simp only [opOff, show lin (gridOf [] []) [] = 0 from rfl]; ring
    have inS : InBox src.grid (unlin (gridOf P P') i ++ unlin (gridOf Q Q') j) := by simpa [opCat] using oS.inBox iP iQ hin0
    have inD : InBox dst.grid (unlin (gridOf Q Q') j ++ unlin (gridOf P P') i) := by simpa [opCat] using oD.inBox iP iQ hin0
    have hts : src.tshapeL (i + j * (gridOf P P').prod) = tileShape P P' (unlin (gridOf P P') i) ++ tileShape Q Q' (unlin (gridOf Q Q') j) := by
      rw [← hS, Tensor.tshapeL_lin inS]
      simpa [opCat, tileShape] using oS.tshape (r := []) iP iQ
    rw [← hS, Tensor.handleL_ok (lin_lt inS), M.bind_ok, ← hD, Tensor.handleL_ok (lin_lt inD), M.bind_ok, hS, hts]
    have hti : dst.tindex (lin dst.grid (unlin (gridOf Q Q') j ++ unlin (gridOf P P') i)) = unlin (gridOf Q Q') j ++ unlin (gridOf P P') i :=
      Tensor.tindex_lin inD
    rw [msRows, msCols, take_of_length (by rw [tileShape_length lP lp, hPl]), drop_of_length (by rw [tileShape_length lP lp, hPl])]
    simp only [hti]
    rw [take_of_length lq.symm, drop_of_length lq.symm, hS]
  · intro t ht u hu
    simp only [List.mem_singleton] at hu
    subst hu
    simp [submitTranspose, task1, hid]
  · intro t ht
    have ht' := ht
    rw [show dst.grid = gridOf Q Q' ++ gridOf P P' by rw [oD.grid]; simp [opCat, gridOf]] at ht'
    obtain ⟨q, p, rfl, iQ, iP⟩ := ht'.exists_split
    have lp : p.length = P.length := by rw [iP.length, gP]
    have lq : q.length = Q.length := by rw [iQ.length, gQ]
    have e1 : (q ++ p).take Q.length = q := take_of_length lq.symm
    have e2 : (q ++ p).drop Q.length = p := drop_of_length lq.symm
    simp only [e1, e2]
    obtain ⟨X, X1, X2, X3⟩ := oS.data hs iP iQ hin0 hx
    have p1 : (tileShape [] [] []).prod = 1 := rfl
    simp only [opCat, List.append_nil, p1, mul_one] at X1 X2
    have hts : dst.tshape (q ++ p) = tileShape Q Q' q ++ tileShape P P' p := by
      simpa [opCat, tileShape] using oD.tshape (r := []) iP iQ
    have hsz : (s (dst.id, lin dst.grid (q ++ p))).size = (tileShape Q Q' q).prod * (tileShape P P' p).prod := by
      rw [hd.2.size ht, hts, List.prod_append]
    obtain ⟨b', f1, f2, f3⟩ := transpose_run (alpha := alpha) (o := Buf.undef (s (dst.id, lin dst.grid (q ++ p))).size) hsz X1 X2
    refine ⟨b', ?_, f2, ?_⟩
    · rw [foldBuf_single]
      simpa [submitTranspose, task1, Task1.inp] using f1
    · intro l hl
      rw [hts] at hl ⊢
      obtain ⟨j, i, rfl, hj, hi⟩ := hl.exists_split
      rw [lin_append hj.length, f3 _ _ (lin_lt hi) (lin_lt hj)]
      have hx3 := X3 i j [] hi hj i0
      simp only [opOff, show lin (tileShape [] [] []) [] = 0 from rfl, mul_zero, add_zero, opCat, List.append_nil] at hx3
      have hg : globIdx dst.basetile (q ++ p) (j ++ i) = globIdx Q' q j ++ globIdx P' p i := by
        simpa [opCat, globIdx] using oD.glob (r := []) (b := []) iP iQ hi hj
      rw [hx3, hg]
      have lJ : (globIdx Q' q j).length = Q.length := (globIdx_inBox lQ lq hj).length
      rw [take_of_length (by rw [lJ, hQl]), drop_of_length (by rw [lJ, hQl])]
      simp [globIdx]

end NNTile
