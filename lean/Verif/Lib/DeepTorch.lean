import Verif.Spec.DeepTorch
import Verif.Lib.MixerTorch
import Verif.Props.C37
import Verif.Props.C61
/-!
# Loading of the parameters of `DeepReLU` and `GPT2MLP`
-/
namespace NNTile
open Finset

section
variable {α : Type}

/-- The loop of `DeepReLU.from_torch`. -/
theorem deepLoads_spec {tmpId : Nat} {ms : List Moments} {ps : List (NdArray α)} {ys : List (List Nat → α)}
    (h : All3 (fun m p y => m.value.shape ≠ [] ∧ p.Is m.value.shape y) ms ps ys) :
    (ms.map fun m => m.value.id).Nodup → (∀ m ∈ ms, tmpId ≠ m.value.id) → ∀ {s : Store α}, (∀ m ∈ ms, m.value.Ready s) →
    ∃ s', deepLoads tmpId (ms.map .moments) ps s = .ok s' ∧ List.Forall₂ (fun m y => m.value.Holds s' y) ms ys ∧ (∀ m ∈ ms, m.value.Ready s') ∧
      OnlyChanged (tmpId :: ms.map fun m => m.value.id) s s' := by
  induction h with
  | nil => exact fun _ _ s _ => ⟨s, rfl, .nil, by simp, fun _ _ => rfl⟩
  | @cons m p y ms ps ys h1 h2 ih =>
    intro hn ht s hr
    rw [List.map_cons, List.nodup_cons] at hn
    obtain ⟨s1, e1, v1, r1, o1⟩ := fromArray_is (hr m (by simp)) (ht m (by simp)) h1.1 h1.2
    have hne : ∀ m' ∈ ms, m'.value.id ∉ [m.value.id, tmpId] := by
      intro m' hm'
      simp only [List.mem_cons, List.not_mem_nil, or_false, not_or]
      exact ⟨fun h => hn.1 (h ▸ List.mem_map_of_mem hm'), Ne.symm (ht m' (List.mem_cons_of_mem _ hm'))⟩
    obtain ⟨s2, e2, v2, r2, o2⟩ := ih hn.2 (fun m' h => ht m' (List.mem_cons_of_mem _ h)) (s := s1)
      (fun m' hm' => o1.ready (hr m' (List.mem_cons_of_mem _ hm')) (hne m' hm'))
    have hm : m.value.id ∉ tmpId :: ms.map fun m => m.value.id := by
      rw [List.mem_cons, not_or]
      exact ⟨Ne.symm (ht m (by simp)), hn.1⟩
    refine ⟨s2, ?_, .cons (o2.holds v1 hm) v2, ?_, (o1.trans o2).mono ?_⟩
    · rw [List.map_cons, deepLoads, loadEntry, e1, M.bind_ok, e2]
    · intro m' hm'
      rcases List.mem_cons.1 hm' with rfl | hm'
      · exact o2.ready r1 hm
      · exact r2 m' hm'
    · intro i hi
      simp only [List.mem_append, List.mem_cons, List.not_mem_nil, or_false, List.map_cons] at hi ⊢
      tauto

/-- An array of another shape is rejected, wherever it is in the list. -/
theorem deepLoads_rejects {tmpId : Nat} : ∀ {ms : List Moments} {ps : List (NdArray α)} {s : Store α}, (ms.map fun m => m.value.id).Nodup → (∀ m ∈ ms, tmpId ≠ m.value.id) →
    (∀ m ∈ ms, m.value.Ready s ∧ m.value.shape ≠ []) → (∀ p ∈ ps, ∃ y, p.Is p.shape y) → (∃ (i : Nat) (m : Moments) (p : NdArray α), ms[i]? = some m ∧ ps[i]? = some p ∧ p.shape ≠ m.value.shape) →
    Throws (deepLoads tmpId (ms.map .moments) ps s)
  | [], _, _, _, _, _, _, ⟨i, m, p, h, _⟩ => by simp at h
  | _ :: _, [], _, _, _, _, _, ⟨i, m, p, _, h, _⟩ => by simp at h
  | m :: ms, p :: ps, s, hn, ht, hr, hp, ⟨i, m', p', h1, h2, h3⟩ => by
    rw [List.map_cons, deepLoads, loadEntry]
    by_cases hs : p.shape = m.value.shape
    · rw [List.map_cons, List.nodup_cons] at hn
      obtain ⟨y, hy⟩ := hp p (by simp)
      rw [hs] at hy
      obtain ⟨s1, e1, v1, r1, o1⟩ := fromArray_is (hr m (by simp)).1 (ht m (by simp)) (hr m (by simp)).2 hy
      rw [e1, M.bind_ok]
      have hne : ∀ m' ∈ ms, m'.value.id ∉ [m.value.id, tmpId] := by
        intro m' hm'
        simp only [List.mem_cons, List.not_mem_nil, or_false, not_or]
        exact ⟨fun h => hn.1 (h ▸ List.mem_map_of_mem hm'), Ne.symm (ht m' (List.mem_cons_of_mem _ hm'))⟩
      refine deepLoads_rejects hn.2 (fun m' h => ht m' (List.mem_cons_of_mem _ h)) (fun m' hm' => ?_) (fun p' hp' => hp p' (List.mem_cons_of_mem _ hp')) ?_
      · have := hr m' (List.mem_cons_of_mem _ hm')
        exact ⟨o1.ready this.1 (hne m' hm'), this.2⟩
      · cases i with
        | zero =>
          simp only [List.getElem?_cons_zero, Option.some.injEq] at h1 h2
          subst h1 h2
          exact absurd hs h3
        | succ i =>
          simp only [List.getElem?_cons_succ] at h1 h2
          exact ⟨i, m', p', h1, h2, h3⟩
    · refine Throws.bind (C46_rejects ?_).2
      rw [if_neg (hr m (by simp)).2]
      exact hs

theorem mlpLoads_eq {tmpId : Nat} : ∀ {es : List PyEntry} {ps : List (NdArray α)} {s : Store α}, es.length ≤ ps.length →
    mlpLoads tmpId es ps s = deepLoads tmpId es (ps.map NdArray.T) s
  | [], ps, s, _ => by rw [mlpLoads, deepLoads]; simp
  | _ :: _, [], _, h => by simp at h
  | e :: es, p :: ps, s, h => by
    rw [mlpLoads, List.map_cons, deepLoads]
    congr 1
    funext s'
    exact mlpLoads_eq (by simpa using h)

end

/-- Contents for all tensors which agree with given ones. -/
theorem env_of {i : Nat} {v : List Nat → ℝ} : ∀ {ms : List Moments} {ys : List (List Nat → ℝ)}, ms.length = ys.length → (i :: ms.map fun m => m.value.id).Nodup →
    ∃ env : Env, env i = v ∧ List.Forall₂ (fun m y => env m.value.id = y) ms ys
  | [], [], _, _ => ⟨fun _ => v, rfl, .nil⟩
  | [], _ :: _, h, _ => by simp at h
  | _ :: _, [], h, _ => by simp at h
  | m :: ms, y :: ys, h, hn => by
    simp only [List.map_cons, List.nodup_cons, List.mem_cons, not_or] at hn
    obtain ⟨env, h1, h2⟩ := env_of (i := i) (v := v) (ms := ms) (ys := ys) (by simpa using h) (by
      rw [List.nodup_cons]
      exact ⟨hn.1.2, hn.2.2⟩)
    refine ⟨Function.update env m.value.id y, by rw [Function.update_of_ne hn.1.1, h1], .cons (by rw [Function.update_self]) ?_⟩
    have : ∀ {ms : List Moments} {ys : List (List Nat → ℝ)}, List.Forall₂ (fun m y => env m.value.id = y) ms ys → (m.value.id ∉ ms.map fun m => m.value.id) →
        List.Forall₂ (fun m' y' => Function.update env m.value.id y m'.value.id = y') ms ys := by
      intro ms ys h hm
      induction h with
      | nil => exact .nil
      | cons h _ ih =>
        rw [List.map_cons, List.mem_cons, not_or] at hm
        exact .cons (by rw [Function.update_of_ne (Ne.symm hm.1), h]) (ih hm.2)
    exact this h2 hn.2.1

theorem netValid_of_plain {asIdx : ℝ → Int} {invalidate : Bool} : ∀ {layers : List (PyLayer ℝ)}, (∀ l ∈ layers, l.Plain) → ∀ env, NetValid env (netOf asIdx invalidate layers)
  | [], _, _ => trivial
  | l :: _, h, env => ⟨(h l (by simp) _ _).2 env, netValid_of_plain (fun l' h' => h l' (by simp [h'])) _⟩

/-- With given contents of the inputs and parameters, `forward_async` computes the values for them. -/
theorem plain_forward {asIdx : ℝ → Int} {invalidate : Bool} {x : Moments} {layers : List (PyLayer ℝ)} {acts : List Moments} {s : Store ℝ}
    (h : IsNetwork asIdx invalidate (x :: layers.flatMap PyLayer.parameters) layers) (hp : ∀ l ∈ layers, l.Plain)
    (hr : NetReady (x :: layers.flatMap PyLayer.parameters) (netOf asIdx invalidate layers) s) {ys : List (List Nat → ℝ)} {v : List Nat → ℝ} (hv : x.value.Holds s v)
    (hy : List.Forall₂ (fun m y => m.value.Holds s y) (layers.flatMap PyLayer.parameters) ys) :
    ∃ env : Env, env x.value.id = v ∧ List.Forall₂ (fun m y => env m.value.id = y) (layers.flatMap PyLayer.parameters) ys ∧
      Runs ((BaseModel.init acts layers).forwardAsync asIdx invalidate) s (fwdIds (netOf asIdx invalidate layers))
        (fun s' => ∀ l ∈ layers, l.output.value.Holds s' (netEnv env (netOf asIdx invalidate layers) l.output.value.id)) := by
  obtain ⟨env, h1, h2⟩ := env_of (i := x.value.id) (v := v) hy.length_eq (by
    have := ids_nodup h.ids
    rwa [List.map_cons] at this)
  refine ⟨env, h1, h2, (C36_forward acts h (env := env) hr ?_ (netValid_of_plain hp env)).imp (fun _ h => h) fun s' _ hs l hl => ?_⟩
  · intro m hm
    rcases List.mem_cons.1 hm with rfl | hm
    · rw [h1]; exact hv
    · clear h1 hr h hp
      generalize layers.flatMap PyLayer.parameters = ms at hy h2 hm
      induction hy with
      | nil => cases hm
      | cons ha _ ih =>
        cases h2 with
        | cons hb h2 =>
          rcases List.mem_cons.1 hm with rfl | hm
          · rw [hb]; exact ha
          · exact ih h2 hm
  · have := hs.1 (l.toNet asIdx invalidate).out (List.mem_append_right _ (List.mem_map_of_mem (List.mem_map_of_mem hl)))
    rw [PyLayer.toNet_out] at this
    exact this.2

/-! ### The functions -/

/-- Weight and bias (zero if there is none). -/
def TorchLin.values (t : TorchLin (List Nat → ℝ)) : (List Nat → ℝ) × (List Nat → ℝ) := (t.w, t.b.getD 0)

theorem linear_affine (k : Nat) (t : TorchLin (List Nat → ℝ)) (h : List Nat → ℝ) (o b : Nat) :
    linearOut .R .noTrans 1 [k] h t.values.1 t.values.2 [o, b] = torchAffine k t (fun b i => h [i, b]) b o := by
  obtain ⟨w, c⟩ := t
  simp only [linearOut, torchAffine, sum_box1, TorchLin.values, opCat]
  congr 1
  · exact Finset.sum_congr rfl fun i _ => by simp [mul_comm]
  · cases c <;> simp

theorem hidden_same (width : Nat) : ∀ (ts : List (TorchLin (List Nat → ℝ))) (k : Nat) (h : List Nat → ℝ) (o b : Nat),
    hiddenOut .R 1 width reluSpec [k] h (ts.map TorchLin.values) [o, b] = torchHidden width k ts (fun b i => h [i, b]) b o
  | [], _, _, _, _ => rfl
  | t :: ts, k, h, o, b => by
    rw [List.map_cons, hiddenOut, hidden_same width ts, torchHidden]
    simp only [linear_affine]
    rfl

theorem deep_same (q width : Nat) (t : DeepP (List Nat → ℝ)) (x : List Nat → ℝ) (o b : Nat) :
    deepOut .R 1 width reluSpec [q] x (t.hidden.map TorchLin.values) t.last.values [o, b] = torchDeep q width t (fun b i => x [i, b]) b o := by
  rw [deepOut, linear_affine, torchDeep]
  congr 1
  funext b i
  exact hidden_same width t.hidden q x i b

end NNTile
