import Verif.Lib.FlashBackward
/-! `flash_softmax_gemm_backward` does the same as the separate operations. -/
namespace NNTile
variable {α : Type}

namespace FlashBwd
variable (F : FlashBwd)

/-- Numbering of the tensors. -/
inductive Ix | Q | K | V | mask | mse | dA | tmp | tmpGrad | sps | dQ | dK | dV
  deriving DecidableEq

def tens (i : Ix) : Tensor := match i with
  | .Q => F.Q
  | .K => F.K
  | .V => F.V
  | .mask => F.mask
  | .mse => F.mse
  | .dA => F.dA
  | .tmp => F.tmp
  | .tmpGrad => F.tmpGrad
  | .sps => F.sps
  | .dQ => F.dQ
  | .dK => F.dK
  | .dV => F.dV

def Ix.all : List Ix := [.Q, .K, .V, .mask, .mse, .dA, .tmp, .tmpGrad, .sps, .dQ, .dK, .dV]

theorem tensors_eq : F.tensors = Ix.all.map F.tens := rfl

theorem Ix.mem_all (i : Ix) : i ∈ Ix.all := by cases i <;> decide

variable {F} {z t : AttnDims}

theorem Fits.inj (h : F.Fits z t) {i j : Ix} (hij : i ≠ j) : (F.tens i).id ≠ (F.tens j).id := by
  have := h.ids
  rw [tensors_eq, List.map_map] at this
  intro e
  exact hij (List.inj_on_of_nodup_map this i.mem_all j.mem_all e)

theorem Fits.wf' (h : F.Fits z t) (i : Ix) : (F.tens i).WF := h.wf _ (by rw [tensors_eq]; exact List.mem_map_of_mem i.mem_all)

theorem Fits.pos (h : F.Fits z t) : FlashPos z t := (h.heads F.Q (by simp)).pos (h.wf' .Q)

/-- Handle of a tile. -/
def hd (T : Tensor) (l : List Nat) : Handle := (T.id, lin T.grid l)

theorem hd_ne {i j : Ix} (h : F.Fits z t) (hij : i ≠ j) (l l' : List Nat) : hd (F.tens i) l ≠ hd (F.tens j) l' := fun e => h.inj hij (congrArg Prod.fst e)

theorem hd_inj {T : Tensor} {l l' : List Nat} (hl : InBox T.grid l) (hl' : InBox T.grid l') : hd T l = hd T l' ↔ l = l' :=
  ⟨fun e => lin_inj hl hl' (congrArg Prod.snd e), fun e => by rw [e]⟩

variable [FP α] (asBool : α → Bool) (ninf : α) (F) (z t)

/-- Tasks for one pair of tiles of the sequence (`i`: keys, `j`: queries). -/
def dvT (i n m j : Nat) : Task1 α :=
  ⟨"flash_softmax_gemm_backward_sumprod_slice", [hd F.K [0, i, n, m], hd F.Q [0, j, n, m], hd F.mask [i, j], hd F.mse [0, j, n, m], hd F.dA [0, j, n, m], hd F.V [0, i, n, m]],
    hd F.dV [0, i, n, m], .RW, fun rs b => match rs with
    | [k, q, m, e, g, _] => flashDVKernel asBool ninf t.S z.D (t.B * t.H) [t.S, t.S, t.B, t.H].prod k q m e g b
    | _ => .error (.ub "buffers")⟩
def spT (i n m j : Nat) : Task1 α :=
  ⟨"flash_softmax_gemm_backward_sumprod_slice", [hd F.K [0, i, n, m], hd F.Q [0, j, n, m], hd F.mask [i, j], hd F.mse [0, j, n, m], hd F.dA [0, j, n, m], hd F.V [0, i, n, m]],
    hd F.sps [j, n, m], .RW, fun rs b => match rs with
    | [k, q, m, e, g, v] => flashSumprodKernel asBool ninf t.S z.D (t.B * t.H) [t.S, t.S, t.B, t.H].prod [t.S, t.S, t.B, t.H].prod k q m e g v b
    | _ => .error (.ub "buffers")⟩
def dqT (i n m j : Nat) : Task1 α :=
  ⟨"flash_softmax_gemm_backward_dq_dk", [hd F.K [0, i, n, m], hd F.Q [0, j, n, m], hd F.mask [i, j], hd F.mse [0, j, n, m], hd F.dA [0, j, n, m], hd F.V [0, i, n, m],
    hd F.sps [j, n, m]], hd F.dQ [0, j, n, m], .RW, fun rs b => match rs with
    | [k, q, m, e, g, v, p] => flashDQKernel asBool ninf t.S z.D (t.B * t.H) [t.S, t.S, t.B, t.H].prod [t.S, t.S, t.B, t.H].prod k q m e g v p b
    | _ => .error (.ub "buffers")⟩
def dkT (i n m j : Nat) : Task1 α :=
  ⟨"flash_softmax_gemm_backward_dq_dk", [hd F.K [0, i, n, m], hd F.Q [0, j, n, m], hd F.mask [i, j], hd F.mse [0, j, n, m], hd F.dA [0, j, n, m], hd F.V [0, i, n, m],
    hd F.sps [j, n, m]], hd F.dK [0, i, n, m], .RW, fun rs b => match rs with
    | [k, q, m, e, g, v, p] => flashDKKernel asBool ninf t.S z.D (t.B * t.H) [t.S, t.S, t.B, t.H].prod [t.S, t.S, t.B, t.H].prod k q m e g v p b
    | _ => .error (.ub "buffers")⟩

def body1 (i n m : Nat) : List (Task1 α) :=
  [submitClear (hd F.dQ [0, i, n, m]), submitClear (hd F.dK [0, i, n, m]), submitClear (hd F.dV [0, i, n, m])] ++
    (List.range (z.S / t.S)).flatMap (fun j => [dvT F z t asBool ninf i n m j, spT F z t asBool ninf i n m j])
def body2 (i n m : Nat) : List (Task1 α) :=
  (List.range (z.S / t.S)).flatMap (fun j => [dqT F z t asBool ninf i n m j, dkT F z t asBool ninf i n m j])

def list1 : List (Task1 α) := loops3 (z.S / t.S) (z.B / t.B) (z.H / t.H) (body1 F z t asBool ninf)
def list2 : List (Task1 α) := loops3 (z.S / t.S) (z.B / t.B) (z.H / t.H) (body2 F z t asBool ninf)

variable {F z t} (h : F.Fits z t)
include h

theorem backward_ok : flashBackwardAsync asBool ninf F.Q F.dQ F.K F.dK F.V F.dV F.mask F.mse F.dA F.tmp F.tmpGrad F.sps =
    .ok (list1 F z t asBool ninf ++ list2 F z t asBool ninf) := by
  rw [flashBackwardAsync, flashBackwardLoops_ok h.tiles h.pos _ _ _ (h.heads _ (by simp)) (h.heads _ (by simp)) (h.heads _ (by simp)) (h.heads _ (by simp)) (h.heads _ (by simp))
    (h.heads _ (by simp)) h.mask h.mse (h.heads _ (by simp)) h.tmp h.tmpGrad h.sps]
  rfl

omit h
theorem submitClear_out (k : Handle) : (submitClear (α := α) k).out = k := rfl

theorem flatMap_filter {τ : Type} {n : Nat} {g : Nat → List τ} {p : τ → Bool} {f : Nat → τ} (hg : ∀ j, j < n → (g j).filter p = [f j]) :
    ((List.range n).flatMap g).filter p = (List.range n).map f := by
  rw [List.filter_flatMap, List.map_eq_flatMap, List.flatMap_def, List.flatMap_def]
  congr 1
  exact List.map_congr_left fun j hj => hg j (List.mem_range.1 hj)

theorem flatMap_filter_nil {τ : Type} {n : Nat} {g : Nat → List τ} {p : τ → Bool} (hg : ∀ j, j < n → ∀ u ∈ g j, p u = false) :
    ((List.range n).flatMap g).filter p = [] := by
  rw [List.filter_eq_nil_iff]
  intro u hu
  simp only [List.mem_flatMap, List.mem_range] at hu
  obtain ⟨j, hj, hu⟩ := hu
  rw [hg j hj u hu]
  decide
include h

theorem grid_heads {T : Tensor} (hT : T ∈ [F.Q, F.dQ, F.K, F.dK, F.V, F.dV, F.dA]) {i n m : Nat} (hi : i < z.S / t.S) (hn : n < z.B / t.B) (hm : m < z.H / t.H) :
    InBox T.grid [0, i, n, m] := by
  rw [(h.heads T hT).grid h.tiles h.pos]
  exact ⟨by decide, hi, hn, hm, trivial⟩

theorem grid_sps {i n m : Nat} (hi : i < z.S / t.S) (hn : n < z.B / t.B) (hm : m < z.H / t.H) : InBox F.sps.grid [i, n, m] := by
  rw [h.sps.grid h.tiles h.pos]
  exact ⟨hi, hn, hm, trivial⟩

section
variable {i n m : Nat} (hi : i < z.S / t.S) (hn : n < z.B / t.B) (hm : m < z.H / t.H)
include hi hn hm

theorem filter1_dV : (list1 F z t asBool ninf).filter (fun u => u.out = hd F.dV [0, i, n, m]) =
    submitClear (hd F.dV [0, i, n, m]) :: (List.range (z.S / t.S)).map (dvT F z t asBool ninf i n m) := by
  have e1 : ∀ l, ¬ hd F.dQ l = hd F.dV [0, i, n, m] := fun l => hd_ne (i := .dQ) (j := .dV) h (by decide) l _
  have e2 : ∀ l, ¬ hd F.dK l = hd F.dV [0, i, n, m] := fun l => hd_ne (i := .dK) (j := .dV) h (by decide) l _
  have e3 : ∀ l, ¬ hd F.sps l = hd F.dV [0, i, n, m] := fun l => hd_ne (i := .sps) (j := .dV) h (by decide) l _
  have key : ∀ i' n' m', i' < z.S / t.S → n' < z.B / t.B → m' < z.H / t.H → ¬ (i' = i ∧ n' = n ∧ m' = m) → ∀ u ∈ body1 F z t asBool ninf i' n' m',
      decide (u.out = hd F.dV [0, i, n, m]) = false := by
    intro i' n' m' hi' hn' hm' hne u hu
    have e : ¬ hd F.dV [0, i', n', m'] = hd F.dV [0, i, n, m] := fun e => hne (by
      rw [hd_inj (grid_heads h (by simp) hi' hn' hm') (grid_heads h (by simp) hi hn hm)] at e
      simpa using e)
    simp only [body1, List.mem_append, List.mem_cons, List.not_mem_nil, or_false, List.mem_flatMap, List.mem_range] at hu
    obtain (rfl | rfl | rfl) | ⟨j, hj, rfl | rfl⟩ := hu <;> simp [submitClear_out, dvT, spT, e1, e2, e3, e]
  rw [list1, filter_loops3 hn hm (fun i' n' m' hi' hn' hm' hne => key i' n' m' hi' hn' hm' (fun q => hne q.2)),
    filter_flatMap_unique i hi (fun i' hi' hne => key i' n m hi' hn hm (fun q => hne q.1)), body1, List.filter_append, flatMap_filter (f := dvT F z t asBool ninf i n m)]
  · simp [submitClear_out, e1, e2]
  · intro j hj
    simp [dvT, spT, e3]

theorem filter1_dQ : (list1 F z t asBool ninf).filter (fun u => u.out = hd F.dQ [0, i, n, m]) = [submitClear (hd F.dQ [0, i, n, m])] := by
  have e1 : ∀ l, ¬ hd F.dV l = hd F.dQ [0, i, n, m] := fun l => hd_ne (i := .dV) (j := .dQ) h (by decide) l _
  have e2 : ∀ l, ¬ hd F.dK l = hd F.dQ [0, i, n, m] := fun l => hd_ne (i := .dK) (j := .dQ) h (by decide) l _
  have e3 : ∀ l, ¬ hd F.sps l = hd F.dQ [0, i, n, m] := fun l => hd_ne (i := .sps) (j := .dQ) h (by decide) l _
  have key : ∀ i' n' m', i' < z.S / t.S → n' < z.B / t.B → m' < z.H / t.H → ¬ (i' = i ∧ n' = n ∧ m' = m) → ∀ u ∈ body1 F z t asBool ninf i' n' m',
      decide (u.out = hd F.dQ [0, i, n, m]) = false := by
    intro i' n' m' hi' hn' hm' hne u hu
    have e : ¬ hd F.dQ [0, i', n', m'] = hd F.dQ [0, i, n, m] := fun e => hne (by
      rw [hd_inj (grid_heads h (by simp) hi' hn' hm') (grid_heads h (by simp) hi hn hm)] at e
      simpa using e)
    simp only [body1, List.mem_append, List.mem_cons, List.not_mem_nil, or_false, List.mem_flatMap, List.mem_range] at hu
    obtain (rfl | rfl | rfl) | ⟨j, hj, rfl | rfl⟩ := hu <;> simp [submitClear_out, dvT, spT, e1, e2, e3, e]
  rw [list1, filter_loops3 hn hm (fun i' n' m' hi' hn' hm' hne => key i' n' m' hi' hn' hm' (fun q => hne q.2)),
    filter_flatMap_unique i hi (fun i' hi' hne => key i' n m hi' hn hm (fun q => hne q.1)), body1, List.filter_append, flatMap_filter_nil]
  · simp [submitClear_out, e1, e2]
  · intro j hj u hu
    simp only [List.mem_cons, List.not_mem_nil, or_false] at hu
    obtain rfl | rfl := hu <;> simp [dvT, spT, e1, e3]

theorem filter1_dK : (list1 F z t asBool ninf).filter (fun u => u.out = hd F.dK [0, i, n, m]) = [submitClear (hd F.dK [0, i, n, m])] := by
  have e1 : ∀ l, ¬ hd F.dV l = hd F.dK [0, i, n, m] := fun l => hd_ne (i := .dV) (j := .dK) h (by decide) l _
  have e2 : ∀ l, ¬ hd F.dQ l = hd F.dK [0, i, n, m] := fun l => hd_ne (i := .dQ) (j := .dK) h (by decide) l _
  have e3 : ∀ l, ¬ hd F.sps l = hd F.dK [0, i, n, m] := fun l => hd_ne (i := .sps) (j := .dK) h (by decide) l _
  have key : ∀ i' n' m', i' < z.S / t.S → n' < z.B / t.B → m' < z.H / t.H → ¬ (i' = i ∧ n' = n ∧ m' = m) → ∀ u ∈ body1 F z t asBool ninf i' n' m',
      decide (u.out = hd F.dK [0, i, n, m]) = false := by
    intro i' n' m' hi' hn' hm' hne u hu
    have e : ¬ hd F.dK [0, i', n', m'] = hd F.dK [0, i, n, m] := fun e => hne (by
      rw [hd_inj (grid_heads h (by simp) hi' hn' hm') (grid_heads h (by simp) hi hn hm)] at e
      simpa using e)
    simp only [body1, List.mem_append, List.mem_cons, List.not_mem_nil, or_false, List.mem_flatMap, List.mem_range] at hu
    obtain (rfl | rfl | rfl) | ⟨j, hj, rfl | rfl⟩ := hu <;> simp [submitClear_out, dvT, spT, e1, e2, e3, e]
  rw [list1, filter_loops3 hn hm (fun i' n' m' hi' hn' hm' hne => key i' n' m' hi' hn' hm' (fun q => hne q.2)),
    filter_flatMap_unique i hi (fun i' hi' hne => key i' n m hi' hn hm (fun q => hne q.1)), body1, List.filter_append, flatMap_filter_nil]
  · simp [submitClear_out, e1, e2]
  · intro j hj u hu
    simp only [List.mem_cons, List.not_mem_nil, or_false] at hu
    obtain rfl | rfl := hu <;> simp [dvT, spT, e1, e3]

theorem filter1_sps : (list1 F z t asBool ninf).filter (fun u => u.out = hd F.sps [i, n, m]) =
    (List.range (z.S / t.S)).map (fun i' => spT F z t asBool ninf i' n m i) := by
  have e1 : ∀ l, ¬ hd F.dQ l = hd F.sps [i, n, m] := fun l => hd_ne (i := .dQ) (j := .sps) h (by decide) l _
  have e2 : ∀ l, ¬ hd F.dK l = hd F.sps [i, n, m] := fun l => hd_ne (i := .dK) (j := .sps) h (by decide) l _
  have e3 : ∀ l, ¬ hd F.dV l = hd F.sps [i, n, m] := fun l => hd_ne (i := .dV) (j := .sps) h (by decide) l _
  have e4 : ∀ {i' n' m'}, i' < z.S / t.S → n' < z.B / t.B → m' < z.H / t.H → ¬ (i' = i ∧ n' = n ∧ m' = m) → ¬ hd F.sps [i', n', m'] = hd F.sps [i, n, m] := by
    intro i' n' m' hi' hn' hm' hne e
    rw [hd_inj (grid_sps h hi' hn' hm') (grid_sps h hi hn hm)] at e
    exact hne (by simpa using e)
  rw [list1, filter_loops3 hn hm, flatMap_filter (f := fun i' => spT F z t asBool ninf i' n m i)]
  · intro i' hi'
    rw [body1, List.filter_append, filter_flatMap_unique i hi]
    · simp [submitClear_out, e1, e2, e3, dvT, spT]
    · intro j hj hne u hu
      simp only [List.mem_cons, List.not_mem_nil, or_false] at hu
      obtain rfl | rfl := hu
      · simp [dvT, e3]
      · simp [spT, e4 hj hn hm (fun q => hne q.1)]
  · intro i' n' m' hi' hn' hm' hne u hu
    simp only [body1, List.mem_append, List.mem_cons, List.not_mem_nil, or_false, List.mem_flatMap, List.mem_range] at hu
    obtain (rfl | rfl | rfl) | ⟨j, hj, rfl | rfl⟩ := hu
    · simp [submitClear_out, e1]
    · simp [submitClear_out, e2]
    · simp [submitClear_out, e3]
    · simp [dvT, e3]
    · simp [spT, e4 hj hn' hm' (fun q => hne q.2)]

theorem filter2_dQ : (list2 F z t asBool ninf).filter (fun u => u.out = hd F.dQ [0, i, n, m]) =
    (List.range (z.S / t.S)).map (fun i' => dqT F z t asBool ninf i' n m i) := by
  have e2 : ∀ l, ¬ hd F.dK l = hd F.dQ [0, i, n, m] := fun l => hd_ne (i := .dK) (j := .dQ) h (by decide) l _
  have e4 : ∀ {i' n' m'}, i' < z.S / t.S → n' < z.B / t.B → m' < z.H / t.H → ¬ (i' = i ∧ n' = n ∧ m' = m) → ¬ hd F.dQ [0, i', n', m'] = hd F.dQ [0, i, n, m] := by
    intro i' n' m' hi' hn' hm' hne e
    rw [hd_inj (grid_heads h (by simp) hi' hn' hm') (grid_heads h (by simp) hi hn hm)] at e
    exact hne (by simpa using e)
  rw [list2, filter_loops3 hn hm, flatMap_filter (f := fun i' => dqT F z t asBool ninf i' n m i)]
  · intro i' hi'
    rw [body2, filter_flatMap_unique i hi]
    · simp [e2, dqT, dkT]
    · intro j hj hne u hu
      simp only [List.mem_cons, List.not_mem_nil, or_false] at hu
      obtain rfl | rfl := hu
      · simp [dqT, e4 hj hn hm (fun q => hne q.1)]
      · simp [dkT, e2]
  · intro i' n' m' hi' hn' hm' hne u hu
    simp only [body2, List.mem_cons, List.not_mem_nil, or_false, List.mem_flatMap, List.mem_range] at hu
    obtain ⟨j, hj, rfl | rfl⟩ := hu
    · simp [dqT, e4 hj hn' hm' (fun q => hne q.2)]
    · simp [dkT, e2]

theorem filter2_dK : (list2 F z t asBool ninf).filter (fun u => u.out = hd F.dK [0, i, n, m]) =
    (List.range (z.S / t.S)).map (dkT F z t asBool ninf i n m) := by
  have e1 : ∀ l, ¬ hd F.dQ l = hd F.dK [0, i, n, m] := fun l => hd_ne (i := .dQ) (j := .dK) h (by decide) l _
  have key : ∀ i' n' m', i' < z.S / t.S → n' < z.B / t.B → m' < z.H / t.H → ¬ (i' = i ∧ n' = n ∧ m' = m) → ∀ u ∈ body2 F z t asBool ninf i' n' m',
      decide (u.out = hd F.dK [0, i, n, m]) = false := by
    intro i' n' m' hi' hn' hm' hne u hu
    have e : ¬ hd F.dK [0, i', n', m'] = hd F.dK [0, i, n, m] := fun e => hne (by
      rw [hd_inj (grid_heads h (by simp) hi' hn' hm') (grid_heads h (by simp) hi hn hm)] at e
      simpa using e)
    simp only [body2, List.mem_cons, List.not_mem_nil, or_false, List.mem_flatMap, List.mem_range] at hu
    obtain ⟨j, hj, rfl | rfl⟩ := hu <;> simp [dqT, dkT, e1, e]
  rw [list2, filter_loops3 hn hm (fun i' n' m' hi' hn' hm' hne => key i' n' m' hi' hn' hm' (fun q => hne q.2)),
    filter_flatMap_unique i hi (fun i' hi' hne => key i' n m hi' hn hm (fun q => hne q.1)), body2, flatMap_filter (f := dkT F z t asBool ninf i n m)]
  intro j hj
  simp [dqT, dkT, e1]

end

/-- What the first loop reads and writes. -/
theorem list1_out {u : Task1 α} (hu : u ∈ list1 F z t asBool ninf) :
    (∃ T ∈ [F.dQ, F.dK, F.dV], ∃ l, InBox T.grid l ∧ u.out = hd T l) ∨ ∃ l, InBox F.sps.grid l ∧ u.out = hd F.sps l := by
  rw [list1, mem_loops3] at hu
  obtain ⟨i, n, m, hi, hn, hm, hu⟩ := hu
  simp only [body1, List.mem_append, List.mem_cons, List.not_mem_nil, or_false, List.mem_flatMap, List.mem_range] at hu
  obtain (rfl | rfl | rfl) | ⟨j, hj, rfl | rfl⟩ := hu
  · exact .inl ⟨F.dQ, by simp, _, grid_heads h (by simp) hi hn hm, rfl⟩
  · exact .inl ⟨F.dK, by simp, _, grid_heads h (by simp) hi hn hm, rfl⟩
  · exact .inl ⟨F.dV, by simp, _, grid_heads h (by simp) hi hn hm, rfl⟩
  · exact .inl ⟨F.dV, by simp, _, grid_heads h (by simp) hi hn hm, rfl⟩
  · exact .inr ⟨_, grid_sps h hj hn hm, rfl⟩

theorem list2_out {u : Task1 α} (hu : u ∈ list2 F z t asBool ninf) :
    ∃ T ∈ [F.dQ, F.dK], ∃ l, InBox T.grid l ∧ u.out = hd T l := by
  rw [list2, mem_loops3] at hu
  obtain ⟨i, n, m, hi, hn, hm, hu⟩ := hu
  simp only [body2, List.mem_cons, List.not_mem_nil, or_false, List.mem_flatMap, List.mem_range] at hu
  obtain ⟨j, hj, rfl | rfl⟩ := hu
  · exact ⟨F.dQ, by simp, _, grid_heads h (by simp) hj hn hm, rfl⟩
  · exact ⟨F.dK, by simp, _, grid_heads h (by simp) hi hn hm, rfl⟩

omit h in
theorem list1_reads {u : Task1 α} (hu : u ∈ list1 F z t asBool ninf) {k : Handle} (hk : k ∈ u.reads) :
    ∃ x ∈ [Ix.K, .Q, .mask, .mse, .dA, .V], k.1 = (F.tens x).id := by
  rw [list1, mem_loops3] at hu
  obtain ⟨i, n, m, hi, hn, hm, hu⟩ := hu
  simp only [body1, List.mem_append, List.mem_cons, List.not_mem_nil, or_false, List.mem_flatMap, List.mem_range] at hu
  obtain (rfl | rfl | rfl) | ⟨j, hj, rfl | rfl⟩ := hu
  · simp [submitClear, task0] at hk
  · simp [submitClear, task0] at hk
  · simp [submitClear, task0] at hk
  all_goals
    simp only [dvT, spT, List.mem_cons, List.not_mem_nil, or_false] at hk
    obtain rfl | rfl | rfl | rfl | rfl | rfl := hk
    · exact ⟨.K, by decide, rfl⟩
    · exact ⟨.Q, by decide, rfl⟩
    · exact ⟨.mask, by decide, rfl⟩
    · exact ⟨.mse, by decide, rfl⟩
    · exact ⟨.dA, by decide, rfl⟩
    · exact ⟨.V, by decide, rfl⟩

omit h in
theorem list2_reads {u : Task1 α} (hu : u ∈ list2 F z t asBool ninf) {k : Handle} (hk : k ∈ u.reads) :
    ∃ x ∈ [Ix.K, .Q, .mask, .mse, .dA, .V, .sps], k.1 = (F.tens x).id := by
  rw [list2, mem_loops3] at hu
  obtain ⟨i, n, m, hi, hn, hm, hu⟩ := hu
  simp only [body2, List.mem_cons, List.not_mem_nil, or_false, List.mem_flatMap, List.mem_range] at hu
  obtain ⟨j, hj, rfl | rfl⟩ := hu
  all_goals
    simp only [dqT, dkT, List.mem_cons, List.not_mem_nil, or_false] at hk
    obtain rfl | rfl | rfl | rfl | rfl | rfl | rfl := hk
    · exact ⟨.K, by decide, rfl⟩
    · exact ⟨.Q, by decide, rfl⟩
    · exact ⟨.mask, by decide, rfl⟩
    · exact ⟨.mse, by decide, rfl⟩
    · exact ⟨.dA, by decide, rfl⟩
    · exact ⟨.V, by decide, rfl⟩
    · exact ⟨.sps, by decide, rfl⟩

end FlashBwd
end NNTile
