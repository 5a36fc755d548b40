import Verif.Model.Elementwise
import Verif.Spec.Ops
import Verif.Lib.Task
/-! Lemmas about element-wise operations. -/
namespace NNTile
variable {α : Type}

/-- Contents of a tile of a tensor that holds given values. -/
theorem Tensor.Holds.data {T : Tensor} {s : Store α} {x : List Nat → α} (h : T.Holds s x) (hT : T.WF) {t : List Nat} (ht : InBox T.grid t)
    {j : Nat} (hj : j < (T.tshape t).prod) :
    (s (T.id, lin T.grid t)).data j = some (x (globIdx T.basetile t (unlin (T.tshape t) j))) := by
  have hl := unlin_inBox (hT.tshape_pos ht) j
  rw [← h _ (hT.glob ht hl).1, hT.get_glob ht hl, lin_unlin hj]

/-- A loop over `i < n`, iteration `i` of which sets cell `i` to `v i`, possibly using the old content of cell `i`. -/
theorem forN_ew {n : Nat} {f : Nat → Buf α → M (Buf α)} {b : Buf α} (v : Nat → Option α)
    (h : ∀ i, i < n → ∀ d : Buf α, d.size = b.size → d.data i = b.data i →
      f i d = .ok ⟨b.size, fun j => if j = i then v i else d.data j⟩) :
    forN n f b = .ok ⟨b.size, fun k => if k < n then v k else b.data k⟩ := by
  induction n with
  | zero => simp
  | succ n ih =>
    rw [forN_succ, ih (fun i hi => h i (by omega)), M.bind_ok, h n (by omega) ⟨b.size, fun k => if k < n then v k else b.data k⟩ rfl (by simp)]
    congr 2
    funext k
    by_cases hk : k = n
    · subst hk; simp
    · by_cases hk' : k < n
      · simp [hk, hk', show k < n + 1 by omega]
      · simp [hk, hk', show ¬ k < n + 1 by omega]

/-- What one task of an element-wise operation does: `P srcs old new` describes the change of a cell. -/
def EWKernel (m : Nat) (P : List (Option α) → Option α → Option α → Prop) (k : Nat → List (Buf α) → Buf α → M (Buf α)) : Prop :=
  ∀ (n : Nat) (rs : List (Buf α)) (b : Buf α) (new : Nat → Option α), rs.length = m → (∀ r ∈ rs, r.size = n) → b.size = n →
    (∀ i, i < n → P (rs.map (fun r => r.data i)) (b.data i) (new i)) →
    ∃ b', k n rs b = .ok b' ∧ b'.size = n ∧ ∀ i, i < n → b'.data i = new i

/-- All tasks together. -/
theorem run_ew {srcs : List Tensor} {dst : Tensor} {s : Store α} (hd : dst.Ready s)
    (hsrc : ∀ x ∈ srcs, x.Alloc s ∧ x.id ≠ dst.id ∧ x.shape = dst.shape ∧ x.basetile = dst.basetile)
    (P : List (Option α) → Option α → Option α → Prop) (task : Nat → Task1 α) (k : Nat → List (Buf α) → Buf α → M (Buf α)) (hk : EWKernel srcs.length P k)
    (mode : WMode)
    (htask : ∀ i, i < dst.ntiles → (task i).reads = srcs.map (fun x => (x.id, i)) ∧ (task i).out = (dst.id, i) ∧
      (task i).mode = mode ∧ (task i).fn = k (dst.tnelems i))
    (v : List Nat → α)
    (hP : ∀ I, InBox dst.shape I → P (srcs.map (fun x => x.get s I)) (if mode = .W then none else dst.get s I) (some (v I))) :
    ∃ s', runAll1 ((List.range dst.ntiles).flatMap (fun i => [task i])) s = .ok s' ∧ dst.Holds s' v ∧ OnlyChanged [dst.id] s s' ∧ dst.Ready s' := by
  obtain ⟨s', h1, h2, h3, h4⟩ := run_tilewise hd.1 hd.2 (gt := fun i => [task i]) (fun I => some (v I))
    (by
      intro i hi t ht
      simp only [List.mem_singleton] at ht
      subst ht
      exact (htask i hi).2.1)
    (by
      intro i hi t ht h hh
      simp only [List.mem_singleton] at ht
      subst ht
      rw [(htask i hi).1] at hh
      simp only [List.mem_map] at hh
      obtain ⟨x, hx, rfl⟩ := hh
      exact (hsrc x hx).2.1)
    (by
      intro t ht
      have hlt : lin dst.grid t < dst.ntiles := lin_lt ht
      obtain ⟨e1, e2, e3, e4⟩ := htask _ hlt
      have hsz := hd.2.size ht
      have hgl : ∀ x ∈ srcs, x.grid = dst.grid ∧ x.WF := by
        intro x hx
        obtain ⟨-, -, a, b⟩ := hsrc x hx
        refine ⟨by simp [Tensor.grid, a, b], ?_⟩
        have := hd.1
        simpa [Tensor.WF, a, b] using this
      obtain ⟨b', c1, c2, c3⟩ := hk (dst.tnelems (lin dst.grid t)) ((task (lin dst.grid t)).reads.map s)
        ((task (lin dst.grid t)).inp (s (dst.id, lin dst.grid t)))
        (fun j => some (v (globIdx dst.basetile t (unlin (dst.tshape t) j))))
        (by simp [e1])
        (by
          intro r hr
          rw [e1] at hr
          simp only [List.map_map, List.mem_map, Function.comp] at hr
          obtain ⟨x, hx, rfl⟩ := hr
          obtain ⟨ax, -, a, b⟩ := hsrc x hx
          rw [ax _ (by rw [Tensor.ntiles, (hgl x hx).1]; exact hlt)]
          simp [Tensor.tnelems, Tensor.tshapeL, Tensor.tindex, (hgl x hx).1, Tensor.tshape, a, b])
        (by
          simp only [Task1.inp]
          split <;> simp [hsz, Tensor.tnelems, Tensor.tshapeL_lin ht])
        (by
          intro j hj
          rw [Tensor.tnelems, Tensor.tshapeL_lin ht] at hj
          have hl : InBox (dst.tshape t) (unlin (dst.tshape t) j) := unlin_inBox (hd.1.tshape_pos ht) j
          have hI := (hd.1.glob ht hl).1
          have hg := hd.1.get_glob ht hl s
          rw [lin_unlin hj] at hg
          have := hP _ hI
          have e5 : (List.map (fun r => r.data j) (List.map s (task (lin dst.grid t)).reads))
              = srcs.map (fun x => x.get s (globIdx dst.basetile t (unlin (dst.tshape t) j))) := by
            rw [e1, List.map_map, List.map_map]
            apply List.map_congr_left
            intro x hx
            obtain ⟨ax, -, a, b⟩ := hsrc x hx
            have ht' : InBox x.grid t := by rw [(hgl x hx).1]; exact ht
            have e : x.tshape t = dst.tshape t := by simp [Tensor.tshape, a, b]
            have hgx := (hgl x hx).2.get_glob ht' (by rw [e]; exact hl) s
            rw [b] at hgx
            rw [hgx, (hgl x hx).1, e, lin_unlin hj]
            rfl
          rw [e5]
          simp only [Task1.inp, e3]
          by_cases hm : mode = .W
          · simp only [hm, if_true] at this ⊢
            simpa using this
          · simp only [hm, if_false] at this ⊢
            rw [← hg]
            exact this)
      refine ⟨b', ?_, ?_, ?_⟩
      · simp only [foldBuf]
        rw [e4, c1]
        rfl
      · rw [c2, hsz, Tensor.tnelems, Tensor.tshapeL_lin ht]
      · intro l hl
        rw [c3 _ (by rw [Tensor.tnelems, Tensor.tshapeL_lin ht]; exact lin_lt hl), unlin_lin hl])
  exact ⟨s', h1, h2, h3, hd.1, h4⟩

theorem loop0_ok {A : Tensor} {submit : Nat → Handle → Task1 α} :
    loop0 A submit = .ok ((List.range A.ntiles).flatMap (fun i => [submit (A.tnelems i) (A.id, i)])) := by
  apply forTasks_ok
  intro i hi
  rw [Tensor.handleL_ok hi]; rfl

theorem loop1_ok {src dst : Tensor} {submit : Nat → Handle → Handle → Task1 α} (h1 : src.shape = dst.shape) (h2 : src.basetile = dst.basetile) :
    loop1 src dst submit = .ok ((List.range dst.ntiles).flatMap (fun i => [submit (dst.tnelems i) (src.id, i) (dst.id, i)])) := by
  have e : src.ntiles = dst.ntiles := by simp [Tensor.ntiles, Tensor.grid, h1, h2]
  rw [loop1, e]
  apply forTasks_ok
  intro i hi
  rw [Tensor.handleL_ok (by omega), Tensor.handleL_ok hi]
  simp [Tensor.tnelems, Tensor.tshapeL, Tensor.tshape, Tensor.tindex, Tensor.grid, h1, h2]

theorem loop2_ok {x dy dx : Tensor} {submit : Nat → Handle → Handle → Handle → Task1 α} (h1 : x.shape = dx.shape) (h2 : x.basetile = dx.basetile)
    (h3 : dy.shape = dx.shape) (h4 : dy.basetile = dx.basetile) :
    loop2 x dy dx submit = .ok ((List.range dx.ntiles).flatMap (fun i => [submit (dx.tnelems i) (x.id, i) (dy.id, i) (dx.id, i)])) := by
  have e : x.ntiles = dx.ntiles := by simp [Tensor.ntiles, Tensor.grid, h1, h2]
  have e' : dy.ntiles = dx.ntiles := by simp [Tensor.ntiles, Tensor.grid, h3, h4]
  rw [loop2, e]
  apply forTasks_ok
  intro i hi
  rw [Tensor.handleL_ok (by omega), Tensor.handleL_ok (by omega), Tensor.handleL_ok hi]
  simp [Tensor.tnelems, Tensor.tshapeL, Tensor.tshape, Tensor.tindex, Tensor.grid, h1, h2]

/-- The buffer with cell `i` set to `v`. -/
def Buf.put (d : Buf α) (i : Nat) (v : α) : Buf α := ⟨d.size, fun j => if j = i then some v else d.data j⟩

theorem Buf.put_self {d : Buf α} {i : Nat} {v : α} (h : d.data i = some v) : d.put i v = d := by
  refine Buf.ext' (by rfl) ?_
  intro k
  simp only [Buf.put]
  split
  · subst_vars; exact h.symm
  · rfl

theorem Buf.wr_put {d : Buf α} {i : Nat} {v : α} (h : i < d.size) : d.wr i v = .ok (d.put i v) := Buf.wr_ok v h

theorem forN_put {n : Nat} {f : Nat → Buf α → M (Buf α)} {b : Buf α} (v : Nat → α)
    (h : ∀ i, i < n → ∀ d : Buf α, d.size = b.size → d.data i = b.data i → f i d = .ok (d.put i (v i))) :
    forN n f b = .ok ⟨b.size, fun k => if k < n then some (v k) else b.data k⟩ := by
  apply forN_ew (fun k => some (v k))
  intro i hi d h1 h2
  rw [h i hi d h1 h2, Buf.put, h1]

/-- Operations on one tensor. `P old new`: what happens to a cell. -/
theorem computes0 {A : Tensor} {s : Store α} (hA : A.Ready s) {submit : Nat → Handle → Task1 α} {mode : WMode} {name : String}
    {body : Nat → Buf α → M (Buf α)} (hsub : ∀ n h, submit n h = task0 name mode h (forN n body)) (f : List Nat → α)
    (P : Option α → α → Prop)
    (hbody : ∀ i (d : Buf α) v, i < d.size → P (d.data i) v → body i d = .ok (d.put i v))
    (hP : ∀ I, InBox A.shape I → P (if mode = .W then none else A.get s I) (f I)) :
    Computes (loop0 A submit) s A f := by
  obtain ⟨s', h⟩ := run_ew (srcs := []) hA (by simp) (fun _ o n => ∃ v, n = some v ∧ P o v) (fun i => submit (A.tnelems i) (A.id, i))
    (fun n rs b => match rs with
      | [] => forN n body b
      | _ => .error (.ub "buffers"))
    (by
      intro n rs b new h0 h1 h2 h3
      simp only [List.length_nil, List.length_eq_zero_iff] at h0
      subst h0
      have : ∀ i, i < n → ∃ v, new i = some v ∧ P (b.data i) v := h3
      have : Nonempty α := ⟨f []⟩
      choose! v hv using (‹∀ i, i < n → _›)
      refine ⟨_, forN_put v ?_, h2, ?_⟩
      · intro i hi d e1 e2
        exact hbody i d (v i) (by omega) (by rw [e2]; exact (hv i hi).2)
      · intro i hi
        simp [hi, (hv i hi).1])
    mode (by intro i hi; rw [hsub]; exact ⟨rfl, rfl, rfl, rfl⟩) f (by intro I hI; exact ⟨_, rfl, hP I hI⟩)
  exact ⟨_, s', loop0_ok, h⟩

/-- Operations on two tensors. `P src old new`: what happens to a cell. -/
theorem computes1 {src A : Tensor} {s : Store α} (hA : A.Ready s) (hs : src.Alloc s) (hid : src.id ≠ A.id) (h1 : src.shape = A.shape)
    (h2 : src.basetile = A.basetile) {submit : Nat → Handle → Handle → Task1 α} {mode : WMode} {name : String}
    {body : Buf α → Nat → Buf α → M (Buf α)} (hsub : ∀ n h h', submit n h h' = task1 name h mode h' (fun a => forN n (body a))) (f : List Nat → α)
    (P : Option α → Option α → α → Prop)
    (hbody : ∀ i (a d : Buf α) v, i < a.size → i < d.size → P (a.data i) (d.data i) v → body a i d = .ok (d.put i v))
    (hP : ∀ I, InBox A.shape I → P (src.get s I) (if mode = .W then none else A.get s I) (f I)) :
    Computes (loop1 src A submit) s A f := by
  obtain ⟨s', h⟩ := run_ew (srcs := [src]) hA (by simp [hs, hid, h1, h2]) (fun rs o n => ∃ a v, rs = [a] ∧ n = some v ∧ P a o v)
    (fun i => submit (A.tnelems i) (src.id, i) (A.id, i))
    (fun n rs b => match rs with
      | [a] => forN n (body a) b
      | _ => .error (.ub "buffers"))
    (by
      intro n rs b new h0 h1 h2 h3
      rw [List.length_singleton, List.length_eq_one_iff] at h0
      obtain ⟨a, rfl⟩ := h0
      have : ∀ i, i < n → ∃ v, new i = some v ∧ P (a.data i) (b.data i) v := by
        intro i hi
        obtain ⟨a', v, e1, e2, e3⟩ := h3 i hi
        simp only [List.map_cons, List.map_nil, List.cons.injEq, and_true] at e1
        exact ⟨v, e2, by rw [e1]; exact e3⟩
      have : Nonempty α := ⟨f []⟩
      choose! v hv using (‹∀ i, i < n → _›)
      refine ⟨_, forN_put v ?_, h2, ?_⟩
      · intro i hi d e1 e2
        exact hbody i a d (v i) (by rw [h1 a (by simp)]; omega) (by omega) (by rw [e2]; exact (hv i hi).2)
      · intro i hi
        simp [hi, (hv i hi).1])
    mode (by intro i hi; rw [hsub]; exact ⟨rfl, rfl, rfl, rfl⟩) f (by intro I hI; exact ⟨_, _, rfl, rfl, hP I hI⟩)
  exact ⟨_, s', loop1_ok h1 h2, h⟩

/-- Operations on three tensors. `P src1 src2 old new`: what happens to a cell. -/
theorem run2 {x dy A : Tensor} {s : Store α} (hA : A.Ready s) (hs : x.Alloc s) (hid : x.id ≠ A.id) (h1 : x.shape = A.shape)
    (h2 : x.basetile = A.basetile) (hs' : dy.Alloc s) (hid' : dy.id ≠ A.id) (h3 : dy.shape = A.shape)
    (h4 : dy.basetile = A.basetile) {submit : Nat → Handle → Handle → Handle → Task1 α} {mode : WMode} {name : String}
    {body : Buf α → Buf α → Nat → Buf α → M (Buf α)} (hsub : ∀ n h h' h'', submit n h h' h'' = task2 name h h' mode h'' (fun a a' => forN n (body a a')))
    (f : List Nat → α)
    (P : Option α → Option α → Option α → α → Prop)
    (hbody : ∀ i (a a' d : Buf α) v, i < a.size → i < a'.size → i < d.size → P (a.data i) (a'.data i) (d.data i) v → body a a' i d = .ok (d.put i v))
    (hP : ∀ I, InBox A.shape I → P (x.get s I) (dy.get s I) (if mode = .W then none else A.get s I) (f I)) :
    ∃ s', runAll1 ((List.range A.ntiles).flatMap (fun i => [submit (A.tnelems i) (x.id, i) (dy.id, i) (A.id, i)])) s = .ok s' ∧
      A.Holds s' f ∧ OnlyChanged [A.id] s s' ∧ A.Ready s' := by
  obtain ⟨s', h⟩ := run_ew (srcs := [x, dy]) hA (by simp [hs, hid, h1, h2, hs', hid', h3, h4])
    (fun rs o n => ∃ a a' v, rs = [a, a'] ∧ n = some v ∧ P a a' o v)
    (fun i => submit (A.tnelems i) (x.id, i) (dy.id, i) (A.id, i))
    (fun n rs b => match rs with
      | [a, a'] => forN n (body a a') b
      | _ => .error (.ub "buffers"))
    (by
      intro n rs b new h0 h1 h2 h3
      have h0 : rs.length = 2 := h0
      rw [List.length_eq_two] at h0
      obtain ⟨a, a', rfl⟩ := h0
      have : ∀ i, i < n → ∃ v, new i = some v ∧ P (a.data i) (a'.data i) (b.data i) v := by
        intro i hi
        obtain ⟨b1, b2, v, e1, e2, e3⟩ := h3 i hi
        simp only [List.map_cons, List.map_nil, List.cons.injEq, and_true] at e1
        exact ⟨v, e2, by rw [e1.1, e1.2]; exact e3⟩
      have : Nonempty α := ⟨f []⟩
      choose! v hv using (‹∀ i, i < n → _›)
      refine ⟨_, forN_put v ?_, h2, ?_⟩
      · intro i hi d e1 e2
        exact hbody i a a' d (v i) (by rw [h1 a (by simp)]; omega) (by rw [h1 a' (by simp)]; omega) (by omega) (by rw [e2]; exact (hv i hi).2)
      · intro i hi
        simp [hi, (hv i hi).1])
    mode (by intro i hi; rw [hsub]; exact ⟨rfl, rfl, rfl, rfl⟩) f (by intro I hI; exact ⟨_, _, _, rfl, rfl, hP I hI⟩)
  exact ⟨s', h⟩

theorem computes2 {x dy A : Tensor} {s : Store α} (hA : A.Ready s) (hs : x.Alloc s) (hid : x.id ≠ A.id) (h1 : x.shape = A.shape)
    (h2 : x.basetile = A.basetile) (hs' : dy.Alloc s) (hid' : dy.id ≠ A.id) (h3 : dy.shape = A.shape)
    (h4 : dy.basetile = A.basetile) {submit : Nat → Handle → Handle → Handle → Task1 α} {mode : WMode} {name : String}
    {body : Buf α → Buf α → Nat → Buf α → M (Buf α)} (hsub : ∀ n h h' h'', submit n h h' h'' = task2 name h h' mode h'' (fun a a' => forN n (body a a')))
    (f : List Nat → α)
    (P : Option α → Option α → Option α → α → Prop)
    (hbody : ∀ i (a a' d : Buf α) v, i < a.size → i < a'.size → i < d.size → P (a.data i) (a'.data i) (d.data i) v → body a a' i d = .ok (d.put i v))
    (hP : ∀ I, InBox A.shape I → P (x.get s I) (dy.get s I) (if mode = .W then none else A.get s I) (f I)) :
    Computes (loop2 x dy A submit) s A f := by
  obtain ⟨s', h⟩ := run2 hA hs hid h1 h2 hs' hid' h3 h4 hsub f P hbody hP
  exact ⟨_, s', loop2_ok h1 h2 h3 h4, h⟩

theorem computes_scal [FP α] {src dst : Tensor} {s : Store α} (hs : src.Ready s) (hd : dst.Ready s) (hid : src.id ≠ dst.id)
    (h1 : src.shape = dst.shape) (h2 : src.basetile = dst.basetile) (alpha : α) (x : List Nat → α) (hx : src.Holds s x) :
    Computes (loop1 src dst (fun n h h' => submitScal n alpha h h')) s dst (fun I => if FP.eqb alpha 0 then 0 else alpha * x I) := by
  by_cases ha : FP.eqb alpha 0 = true
  · simp only [submitScal, ha, if_true]
    obtain ⟨s', h⟩ := run_ew (srcs := []) hd (by simp) (fun _ _ n => n = some (0 : α)) (fun i => submitClear (dst.id, i))
      (fun _ rs b => match rs with
        | [] => clearKernel b
        | _ => .error (.ub "buffers"))
      (by
        intro n rs b new h0 h1 h2 h3
        have : rs = [] := by simpa using h0
        subst this
        refine ⟨_, rfl, h2, ?_⟩
        intro i hi
        simp [h2, hi, h3 i hi])
      .W (by intro i hi; exact ⟨rfl, rfl, rfl, rfl⟩) (fun _ => (0 : α)) (by intro I hI; rfl)
    exact ⟨_, s', loop1_ok h1 h2, h⟩
  · simp only [submitScal, ha]
    refine computes1 hd hs.2 hid h1 h2 (mode := .W)
      (body := fun src i dst => do
        let x ← src.rd i
        dst.wr i (alpha * x)) (fun n h h' => rfl) _
      (fun a o v => ∃ x, a = some x ∧ v = alpha * x)
      ?_ (fun I hI => ⟨x I, hx I (h1 ▸ hI), rfl⟩)
    rintro i a d v ha hi ⟨x, e, rfl⟩
    simp only [Buf.rd_ok ha e, M.bind_ok]
    exact Buf.wr_put hi

theorem checkDims_ok {a b c d : List Nat} (h1 : a = b) (h2 : c = d) : checkDims a b c d = .ok () := by
  subst h1 h2
  induction a generalizing c with
  | nil => cases c <;> rfl
  | cons x a ih =>
    cases c with
    | nil => rfl
    | cons y c => simp [checkDims, throwIf, ih]

theorem checkSame_ok {dst src : Tensor} (h1 : src.shape = dst.shape) (h2 : src.basetile = dst.basetile) : checkSame dst src = .ok () := by
  simp [checkSame, Tensor.ndim, h1, throwIf, checkDims_ok rfl h2.symm]

theorem checkSame'_ok {dst src : Tensor} (h1 : src.shape = dst.shape) (h2 : src.basetile = dst.basetile) : checkSame' src dst = .ok () := by
  simp [checkSame', h1, h2, throwIf]

theorem checkDims_throws {a b c d : List Nat} (hab : a.length = b.length) (hc : c.length = a.length) (hd : d.length = a.length)
    (h : a ≠ b ∨ c ≠ d) : Throws (checkDims a b c d) := by
  induction a generalizing b c d with
  | nil =>
    simp only [List.length_nil, List.length_eq_zero_iff] at hc hd
    have : b = [] := by simpa using hab.symm
    subst hc hd this
    simp at h
  | cons x a ih =>
    cases b with
    | nil => simp at hab
    | cons y b =>
    cases c with
    | nil => simp at hc
    | cons z c =>
    cases d with
    | nil => simp at hd
    | cons w d =>
    simp only [checkDims]
    refine throws_step fun e1 => throws_step fun e2 => ih (by simpa using hab) (by simpa using hc) (by simpa using hd) ?_
    simp only [ne_eq, Decidable.not_not] at e1 e2
    subst e1 e2
    simpa using h

theorem Throws.bind {β γ : Type _} {x : M β} {f : β → M γ} (h : Throws x) : Throws (x >>= f) := by
  obtain ⟨m, rfl⟩ := h
  exact ⟨m, rfl⟩

theorem checkSame_throws {dst src : Tensor} (hd : dst.WF) (hs : src.WF) (h : src.shape ≠ dst.shape ∨ src.basetile ≠ dst.basetile) :
    Throws (checkSame dst src) := by
  simp only [checkSame]
  refine throws_step fun e => checkDims_throws (by simpa [Tensor.ndim] using e) hd.2.2 (by
    rw [hs.2.2]; simpa [Tensor.ndim, eq_comm] using e) ?_
  rcases h with h | h
  · exact .inl (Ne.symm h)
  · exact .inr (Ne.symm h)

theorem checkSame'_throws {dst src : Tensor} (h : src.shape ≠ dst.shape ∨ src.basetile ≠ dst.basetile) :
    Throws (checkSame' src dst) := by
  simp only [checkSame']
  by_cases h1 : src.shape = dst.shape
  · refine throws_step fun _ => ?_
    rw [throwIf_pos (by tauto)]
    exact ⟨_, rfl⟩
  · exact throws_pos h1

end NNTile
