import Verif.Spec.NetLayers
import Verif.Lib.VJP
import Verif.Lib.LinearGrad
import Verif.Lib.LayerNorm
import Verif.Props.C09
import Verif.Props.C11
import Verif.Props.C12
import Verif.Props.C14
import Verif.Props.C22
import Verif.Props.C25
import Verif.Props.C33
import Verif.Props.C34
/-!
# Lemmas for the contracts of the layers
-/
namespace NNTile
open Finset

theorem Computes.single {α : Type} {p : M (List (Task1 α))} {s : Store α} {dst : Tensor} {v : List Nat → α} (h : Computes p s dst v) :
    Computes (seqAsync [p]) s dst v := h.then fun _ _ hv hr => Computes.nil hv hr

theorem HasDerivAt.list_sum_map {β : Type} (L : List β) {f : β → ℝ → ℝ} {f' : β → ℝ} (h : ∀ b ∈ L, HasDerivAt (f b) (f' b) 0) :
    HasDerivAt (fun t => (L.map fun b => f b t).sum) ((L.map f').sum) 0 := by
  induction L with
  | nil => simpa using hasDerivAt_const (0 : ℝ) (0 : ℝ)
  | cons a L ih =>
    simp only [List.map_cons, List.sum_cons]
    exact (h a (by simp)).fun_add (ih fun b hb => h b (by simp [hb]))

/-- Element-wise functions. -/
theorem isVJP_elementwise {m : Moments} {f : ℝ → ℝ} {env : Env} {dy : List Nat → ℝ} (hf : ∀ I ∈ box m.value.shape, DifferentiableAt ℝ f (env m.value.id I)) :
    IsVJP [m] m.value.shape (fun env I => f (env m.value.id I)) env dy (fun _ J => deriv f (env m.value.id J) * dy J) := by
  intro c h hc
  refine ⟨fun I => deriv f (env m.value.id I) * (if m.gradRequired then h m.value.id I else 0), ?_, ?_⟩
  · intro I hI
    have h1 := hc.deriv (m := m) (by simp) hI
    have h2 : HasDerivAt f (deriv f (env m.value.id I)) (c 0 m.value.id I) := by
      rw [(hc m (by simp)).1]; exact (hf I hI).hasDerivAt
    exact h2.comp (0 : ℝ) h1
  · simp only [dotGrads, List.map_cons, List.map_nil, List.sum_cons, List.sum_nil, add_zero]
    split
    · exact sum_congr rfl fun I _ => by ring
    · simp

theorem ActKind.diff (k : ActKind) {z : ℝ} (h : k = .relu → z ≠ 0) : DifferentiableAt ℝ k.spec z := by
  cases k with
  | relu => exact C25_relu_differentiable (h rfl)
  | gelu => exact C25_gelu_differentiable z
  | gelutanh => exact C25_gelutanh_differentiable z

theorem isVJP_add {m m' : Moments} (hne : m.value.id ≠ m'.value.id) (hs : m'.value.shape = m.value.shape) {env : Env} {dy : List Nat → ℝ} :
    IsVJP [m, m'] m.value.shape (fun env I => env m.value.id I + env m'.value.id I) env dy (fun _ => dy) := by
  intro c h hc
  refine ⟨fun I => (if m.gradRequired then h m.value.id I else 0) + (if m'.gradRequired then h m'.value.id I else 0), ?_, ?_⟩
  · intro I hI
    exact (hc.deriv (m := m) (by simp) hI).fun_add (hc.deriv (m := m') (by simp) (by rwa [hs]))
  · simp only [dotGrads, List.map_cons, List.map_nil, List.sum_cons, List.sum_nil, add_zero, mul_add, sum_add_distrib, hs]
    congr 1 <;> (split <;> simp)

theorem isVJP_addSlice {m m' : Moments} {a : Nat} (ha : a < m.value.shape.length) (hne : m.value.id ≠ m'.value.id) (hs : m'.value.shape = m.value.shape.eraseIdx a)
    {env : Env} {dy : List Nat → ℝ} :
    IsVJP [m, m'] m.value.shape (fun env I => env m.value.id I + env m'.value.id (I.eraseIdx a)) env dy
      (fun i J => if i = m.value.id then dy J else ∑ k ∈ range (m.value.shape.getD a 0), dy (J.insertIdx a k)) := by
  intro c h hc
  refine ⟨fun I => (if m.gradRequired then h m.value.id I else 0) + (if m'.gradRequired then h m'.value.id (I.eraseIdx a) else 0), ?_, ?_⟩
  · intro I hI
    refine (hc.deriv (m := m) (by simp) hI).fun_add (hc.deriv (m := m') (by simp) ?_)
    rw [hs, mem_box]
    exact (mem_box.1 hI).erase a
  · simp only [dotGrads, List.map_cons, List.map_nil, List.sum_cons, List.sum_nil, add_zero, mul_add, sum_add_distrib, hs, if_true, if_neg hne.symm]
    congr 1
    · split <;> simp
    · split
      · rw [sum_box_insert ha]
        refine sum_congr rfl fun J _ => ?_
        rw [sum_mul]
        exact sum_congr rfl fun k _ => by rw [erase_insert]
      · simp

theorem isVJP_embedding {m w : Moments} {e : Tensor} {a : Nat} (asIdx : ℝ → Int) (hm : m.gradRequired = false) (hw : w.gradRequired = true) {env : Env} {dy : List Nat → ℝ}
    (h2 : w.value.shape.length = 2)
    (hin : ∀ I, InBox e.shape I → InBox w.value.shape [I.getD a 0, (asIdx (env m.value.id (I.eraseIdx a))).toNat]) :
    IsVJP [m, w] e.shape (fun env I => env w.value.id [I.getD a 0, (asIdx (env m.value.id (I.eraseIdx a))).toNat]) env dy
      (fun _ I => ∑ J ∈ (box e.shape).filter (fun J => J.getD a 0 = I.getD 0 0 ∧ (asIdx (env m.value.id (J.eraseIdx a))).toNat = I.getD 1 0), dy J) := by
  intro c h hc
  refine ⟨fun I => h w.value.id [I.getD a 0, (asIdx (env m.value.id (I.eraseIdx a))).toNat], ?_, ?_⟩
  · intro I hI
    simp only [(hc m (by simp)).2.2 hm]
    have := hc.deriv (m := w) (by simp) (mem_box.2 (hin I (mem_box.1 hI)))
    rwa [if_pos hw] at this
  · simp only [dotGrads, List.map_cons, List.map_nil, List.sum_cons, List.sum_nil, add_zero, hm, hw, if_true, Bool.false_eq_true, if_false, zero_add]
    have : ∀ I ∈ box w.value.shape, (∑ J ∈ (box e.shape).filter (fun J => J.getD a 0 = I.getD 0 0 ∧ (asIdx (env m.value.id (J.eraseIdx a))).toNat = I.getD 1 0), dy J) *
        h w.value.id I = ∑ J ∈ (box e.shape).filter (fun J => [J.getD a 0, (asIdx (env m.value.id (J.eraseIdx a))).toNat] = I),
          dy J * h w.value.id [J.getD a 0, (asIdx (env m.value.id (J.eraseIdx a))).toNat] := by
      intro I hI
      obtain ⟨c, v, rfl⟩ : ∃ c v, I = [c, v] := List.length_eq_two.1 ((mem_box.1 hI).length.trans h2)
      rw [sum_mul]
      simp only [List.getD_cons_succ, List.getD_cons_zero, List.cons.injEq, and_true]
      refine sum_congr rfl (fun J hJ => ?_)
      obtain ⟨-, h1, h2⟩ := mem_filter.1 hJ
      rw [h1, h2]
    rw [sum_congr rfl this, sum_fiberwise_of_maps_to]
    intro J hJ
    rw [mem_box] at hJ ⊢
    exact hin J hJ

end NNTile
