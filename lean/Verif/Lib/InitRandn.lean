import Verif.Model.InitRandn
import Verif.Spec.InitRandn
import Verif.Lib.RandnTensor
import Verif.Lib.Layer
import Verif.Lib.Normal
/-! Random initialization: proofs. -/
namespace NNTile
variable {α : Type}

theorem initParam_runs [FP α] (cos : α → α) (p : Moments) {s : Store α} (h : p.value.Ready s) :
    Runs (initParam cos p) s [p.value.id] fun s' => p.value.Ready s' ∧ p.value.Holds s' (initNumber cos p.value.shape) := by
  have hz : ∀ l : List Nat, (List.replicate l.length (0 : Int)) = toInts (List.replicate l.length 0) := by
    intro l
    induction l with
    | nil => rfl
    | cons a l ih => simp [List.replicate_succ, ih]
  have ha : ∀ l : List Nat, addIdx (List.replicate l.length 0) l = l := by
    intro l
    induction l with
    | nil => rfl
    | cons a l ih => simp [List.replicate_succ, ih]
  have hr : ∀ l : List Nat, List.Forall₂ (· ≤ ·) l l := by
    intro l; induction l with
    | nil => simp
    | cons a l ih => simp [ih]
  obtain ⟨tasks, s', e1, e2, e3, e4, e5⟩ := randnAsync_spec (laran (α := α)) (boxMuller cos (FP.lit 0) (FP.lit 1 / FP.sqrt (FP.ofIndex (p.value.shape.prod : Int)))) h.1
    (st := List.replicate p.value.shape.length 0) (us := p.value.shape) (by simp) (by rw [ha]; exact hr _) 100#64 s h.2
  rw [← hz] at e1
  refine ⟨tasks, s', e1, e2, e4, ⟨h.1, e5⟩, fun I hI => ?_⟩
  rw [e3 I hI, initNumber]
  congr 2
  have hI' := hI.length
  have : addIdx (List.replicate p.value.shape.length 0) I = I := by rw [← hI']; exact ha I
  rw [this]

theorem initRandn_runs [FP α] (cos : α → α) : ∀ {params : List Moments} {s : Store α}, Consistent params → (∀ p ∈ params, p.value.Ready s) →
    Runs (initRandnAsync cos params) s (params.map fun p => p.value.id) fun s' => ∀ p ∈ params, p.value.Ready s' ∧ p.value.Holds s' (initNumber cos p.value.shape)
  | [], s, _, _ => Runs.nil (by simp)
  | p :: ps, s, hc, h => by
    rw [initRandnAsync, List.map_cons]
    refine Runs.cons' (initParam_runs cos p (h p (by simp))) (by simp) fun s1 o1 h1 => ?_
    have hr : ∀ q ∈ ps, q.value.Ready s1 := by
      intro q hq
      by_cases e : q.value.id = p.value.id
      · rw [hc q (by simp [hq]) p (by simp) e]; exact h1.1
      · exact o1.ready (h q (by simp [hq])) (by simpa using e)
    refine (initRandn_runs cos (fun a ha b hb => hc a (by simp [ha]) b (by simp [hb])) hr).imp (by simp +contextual) fun s2 o2 h2 => ?_
    intro q hq
    rcases List.mem_cons.1 hq with rfl | hq
    · by_cases e : ∃ r ∈ ps, r.value.id = q.value.id
      · obtain ⟨r, hr', e⟩ := e
        rw [← hc r (by simp [hr']) q (by simp) e]
        exact h2 r hr'
      · have hni : q.value.id ∉ ps.map fun p => p.value.id := by
          intro hm
          obtain ⟨r, hr', er⟩ := List.mem_map.1 hm
          exact e ⟨r, hr', er⟩
        exact ⟨o2.ready h1.1 hni, o2.holds h1.2 hni⟩
    · exact h2 q hq

theorem initSeq_flat (L : List (List (M (List (Task1 α))))) : seqAsync (L.map seqAsync) = seqAsync L.flatten := by
  have happ : ∀ A B : List (M (List (Task1 α))), seqAsync (A ++ B) = (seqAsync A >>= fun a => seqAsync B >>= fun b => .ok (a ++ b)) := by
    intro A B
    induction A with
    | nil =>
      simp only [seqAsync, M.bind_ok, List.nil_append]
      cases seqAsync B <;> rfl
    | cons p A ih =>
      simp only [List.cons_append, seqAsync, ih]
      cases p with
      | error e => rfl
      | ok a =>
        simp only [M.bind_ok]
        cases seqAsync A with
        | error e => rfl
        | ok b =>
          simp only [M.bind_ok]
          cases seqAsync B with
          | error e => rfl
          | ok c => simp only [M.bind_ok, List.append_assoc]
  induction L with
  | nil => rfl
  | cons l L ih => rw [List.map_cons, List.flatten_cons, happ, seqAsync, ih]

theorem initAll_eq [FP α] (cos : α → α) (m : BaseModel α) : m.initAll cos = initRandnAsync cos (m.layers.flatMap PyLayer.parameters) := by
  have := initSeq_flat (m.layers.map fun l => l.parameters.map (initParam cos))
  rw [List.map_map] at this
  rw [BaseModel.initAll, initRandnAsync, List.map_flatMap, List.flatMap_def]
  exact this

theorem initLinears_eq [FP α] (cos : α → α) (m : BaseModel α) :
    m.initLinears cos = initRandnAsync cos (m.layers.flatMap fun l => if l.isLinear then l.parameters else []) := by
  have := initSeq_flat (m.layers.map fun l => (if l.isLinear then l.parameters else []).map (initParam cos))
  rw [List.map_map] at this
  rw [BaseModel.initLinears, initRandnAsync, List.map_flatMap, List.flatMap_def, ← this]
  congr 1
  apply List.map_congr_left
  intro l _
  simp only [Function.comp]
  cases l.isLinear <;> rfl

/-- The exact number, while the position is before the one of the infinite number. -/
theorem initNumber_xreal {S I : List Nat} (hS : Pos S) (hI : InBox S I) (hn : S.prod ≤ 2689333721826401274) : initNumber XReal.cos S I = .fin (initValue S I) := by
  have hpos : 0 < S.prod := by
    clear hn hI
    induction S with
    | nil => simp
    | cons a S ih => simp only [List.prod_cons]; exact Nat.mul_pos (hS a (by simp)) (ih fun x hx => hS x (by simp [hx]))
  have hlt : lin S I < S.prod := lin_lt hI
  have hdev : (FP.lit 1 / FP.sqrt (FP.ofIndex (S.prod : Int)) : XReal) = .fin (1 / Real.sqrt S.prod) := by
    change XReal.div (.fin _) (XReal.sqrt (.fin _)) = _
    have h1 : (0 : ℝ) < S.prod := by exact_mod_cast hpos
    have h2 : Real.sqrt S.prod ≠ 0 := (Real.sqrt_pos.2 h1).ne'
    simp only [XReal.sqrt, Int.cast_natCast]
    rw [if_pos h1.le]
    simp only [XReal.div]
    rw [if_neg h2]
    push_cast
    rfl
  have hne : drawState 100#64 (2 * lin S I) ≠ 0 := by
    have h : rndStep^[2 * 2689333721826401274] 100#64 = 0 := by
      rw [← rndJump_ofNat]
      decide +kernel
    rw [drawState_eq, ← h, ne_eq, rndStep_eq_iff]
    omega
  rw [initNumber, hdev]
  have e0 : (FP.lit 0 : XReal) = .fin 0 := by
    change XReal.fin _ = _
    push_cast; rfl
  rw [e0]
  exact nthNormal_fin 0 _ 100#64 _ hne

/-- The number in the instance over the reals. -/
theorem initNumber_real (S I : List Nat) : initNumber Real.cos S I = initValue S I := by
  rw [initNumber, nthNormal, initValue, ← drawState_eq, ← drawState_eq]
  generalize S.prod = n
  simp only [boxMuller, boxMullerSpec, laran, unitOf, FP.lit, FP.sqrt, FP.log, FP.ofIndex, twoPiLit]
  push_cast
  simp only [one_div, div_eq_mul_inv, zero_add, add_zero, one_mul]
  rw [mul_comm (_ * (2 ^ 64)⁻¹ : ℝ) (62831853071795864769252867663 * (10 ^ 28)⁻¹)]

end NNTile
