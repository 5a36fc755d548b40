import Verif.Lib.AttnGrad
import Verif.Lib.LayerState
import Verif.Props.C11
import Verif.Props.C12
import Verif.Props.C14
import Verif.Props.C19Real
import Verif.Props.C20
import Verif.Props.C21
/-!
# Forward propagation of attention
-/
namespace NNTile
open Finset

theorem LSep.of {ι : Type} [DecidableEq ι] {ins : List Moments} {tens : ι → Tensor} {L : List ι} (hL : ∀ i, i ∈ L)
    (hn : (ins.flatMap Moments.ids ++ L.map (fun i => (tens i).id)).Nodup) : LSep ins ins tens := by
  rw [List.nodup_append] at hn
  obtain ⟨h1, h2, h3⟩ := hn
  have hv : ∀ m ∈ ins, m.value.id ∈ ins.flatMap Moments.ids := fun m hm => List.mem_flatMap.2 ⟨m, hm, by simp [Moments.ids]⟩
  have hg : ∀ m ∈ ins, m.gradRequired = true → m.grad.id ∈ m.ids := fun m _ hr => by simp [Moments.ids, Moments.gradIds, hr]
  have hg' : ∀ m ∈ ins, m.gradRequired = true → m.grad.id ∈ ins.flatMap Moments.ids := fun m hm hr => List.mem_flatMap.2 ⟨m, hm, hg m hm hr⟩
  have ht : ∀ i, (tens i).id ∈ L.map (fun i => (tens i).id) := fun i => List.mem_map.2 ⟨i, hL i, rfl⟩
  refine ⟨fun i j e => List.inj_on_of_nodup_map h2 (hL i) (hL j) e, fun m hm i => h3 _ (hv m hm) _ (ht i), fun m hm hr i => h3 _ (hg' m hm hr) _ (ht i), ?_, ?_, ?_⟩
  · intro m hm m' hm' hr e
    exact value_not_gradIds h1 hm hm' (by simp [Moments.gradIds, hr, e])
  · intro m hm m' hm' hr hr' e
    exact ids_inj h1 hm hm' (hg m hm hr) (e ▸ hg m' hm' hr')
  · intro m hm m' hm' e
    exact ids_inj h1 hm hm' m.value_mem_ids (e ▸ m'.value_mem_ids)

section project
variable {ι : Type} [DecidableEq ι] {ins gs : List Moments} {tens : ι → Tensor} {s : Store ℝ} {env g : Env} {σ : ι → Option (List Nat → ℝ)}

theorem attnProject_runs (sep : LSep ins gs tens) (h : LSt ins gs tens s env g σ) {w x pT p : Moments} {bias : Option Moments} {i j : ι} (hi : tens i = pT.value)
    (hj : tens j = p.value) (hij : i ≠ j) (mw : w ∈ ins) (mx : x ∈ ins) (mb : ∀ m, bias = some m → m ∈ ins) {E S B H D E' S' B' H' D' : Nat}
    (fw : w.Is [H, D, E] [H', D', E']) (fx : x.Is [E, S, B] [E', S', B']) (fT : pT.Is [H, D, S, B] [H', D', S', B']) (fp : p.Is [D, S, B, H] [D', S', B', H'])
    (fb : ∀ m, bias = some m → m.Is [D, H] [D', H']) (en redux : Bool) {ps : List (M (List (Task1 ℝ)))} {ids : List Nat} (ii : (tens i).id ∈ ids)
    (ij : (tens j).id ∈ ids) {P : Store ℝ → Prop}
    (k : ∀ s' σ', LSt ins gs tens s' env g σ' → σ' j = some (attnProj E (env w.value.id) (env x.value.id) (biasAt bias env)) →
      (∀ o, o ≠ i → o ≠ j → σ' o = σ o) → Runs (seqAsync ps) s' ids P) :
    Runs (seqAsync (attnProject en redux w x pT p bias ++ ps)) s ids P := by
  obtain ⟨w1, w2, -⟩ := fw
  obtain ⟨x1, x2, -⟩ := fx
  obtain ⟨t1, t2, -⟩ := fT
  obtain ⟨p1, p2, -⟩ := fp
  rw [← hi] at t1 t2
  rw [← hj] at p1 p2
  simp only [attnProject, List.cons_append, List.nil_append, ← hi, ← hj]
  -- the product
  refine h.step sep (i := i) (v := fun I => attnProj E (env w.value.id) (env x.value.id) (fun _ => 0) (I.drop 1 ++ I.take 1))
    (gemm_computes (tA := .noTrans) (tB := .noTrans) (nd := 1) (bt := 0) (h.value mw).1 (h.value mx).1 (h.ready i) (sep.vt _ mw i) (sep.vt _ mx i) (M := [H, D]) (K := [E]) (N := [S, B]) (R := [])
      ⟨rfl, rfl, w1, x1, t1⟩ ⟨[H', D'], [E'], [S', B'], [], rfl, rfl, w2, x2, t2⟩ 1 0 redux (fun _ => 0) (h.value mw).2 (h.value mx).2 (by simp) ?_) ii fun s1 h1 => ?_
  · intro I hI J hJ b hb
    obtain ⟨h, d, hh, hd, rfl⟩ := mem_box2 hI
    obtain ⟨s, n, hs, hn, rfl⟩ := mem_box2 hJ
    obtain rfl := mem_box_nil hb
    simp [attnProj, sum_box1]
  -- the transposition
  refine h1.step sep (i := j) (v := attnProj E (env w.value.id) (env x.value.id) (fun _ => 0))
    (transpose_computes (nd := 1) (h1.ready i) (h1.ready j) (fun e => hij (sep.inj e)) ⟨by decide, by rw [t1]; simp, by rw [t1, p1]; rfl, by rw [t2, p2]; rfl⟩
      (h1.hold (Function.update_self ..)) ?_) ij fun s2 h2 => ?_
  · intro I hI J hJ
    rw [t1] at hI hJ
    obtain ⟨h, hh, rfl⟩ := mem_box1 hI
    rfl
  refine h2.inval sep i en ii fun s3 h3 => ?_
  have v3 : Function.update (Function.update (Function.update σ i (some fun I => attnProj E (env w.value.id) (env x.value.id) (fun _ => 0) (I.drop 1 ++ I.take 1))) j
      (some (attnProj E (env w.value.id) (env x.value.id) (fun _ => 0)))) i none j = some (attnProj E (env w.value.id) (env x.value.id) (fun _ => 0)) := by
    rw [Function.update_of_ne hij.symm, Function.update_self]
  cases hb : bias with
  | none =>
    refine LSt.skip (k s3 _ h3 ?_ ?_)
    · rw [v3, hb]; rfl
    · intro o o1 o2
      rw [Function.update_of_ne o1, Function.update_of_ne o2, Function.update_of_ne o1]
  | some b =>
    obtain ⟨b1, b2, -⟩ := fb b hb
    have mb := mb b hb
    refine h3.step sep (i := j) (v := attnProj E (env w.value.id) (env x.value.id) (biasAt (some b) env))
      ((C13_add_fiber_partial (a := 0) (b := 1) (h3.value mb).1 (h3.ready j) (sep.vt _ mb j) ⟨by rw [p1]; simp, by rw [b1, p1]; rfl, by rw [b2, p1, p2]; rfl⟩
        1 1 (.inr rfl) _ _ (h3.value mb).2 (fun _ => h3.hold v3)).congr ?_) ij fun s4 h4 => k s4 _ h4 ?_ ?_
    · intro I hI
      rw [p1] at hI
      obtain ⟨d, s, n, h, hd, hs, hn, hh, rfl⟩ := mem_box4 (mem_box.2 hI)
      simp [attnProj, biasAt, fiberIdx]
    · rw [Function.update_self, hb]
    · intro o o1 o2
      rw [Function.update_of_ne o2, Function.update_of_ne o1, Function.update_of_ne o2, Function.update_of_ne o1]

end project

/-- The tensors of the layer: output (its value or gradient), values and gradients of temporary tensors. -/
inductive AI where
  | out | qTv | qTg | qv | qg | kTv | kTg | kv | kg | vTv | vTg | vv | vg | av | ag | bv | bg | bTv | bTg | mse | sps
  deriving DecidableEq

def AI.all : List AI := [.out, .qTv, .qTg, .qv, .qg, .kTv, .kTg, .kv, .kg, .vTv, .vTg, .vv, .vg, .av, .ag, .bv, .bg, .bTv, .bTg, .mse, .sps]

def Attention.tens (l : Attention ℝ) (out : Tensor) : AI → Tensor
  | .out => out
  | .qTv => l.qT.value
  | .qTg => l.qT.grad
  | .qv => l.q.value
  | .qg => l.q.grad
  | .kTv => l.kT.value
  | .kTg => l.kT.grad
  | .kv => l.k.value
  | .kg => l.k.grad
  | .vTv => l.vT.value
  | .vTg => l.vT.grad
  | .vv => l.v.value
  | .vg => l.v.grad
  | .av => l.a.value
  | .ag => l.a.grad
  | .bv => l.b.value
  | .bg => l.b.grad
  | .bTv => l.bT.value
  | .bTg => l.bT.grad
  | .mse => l.aMaxsumexp
  | .sps => l.aSumprodSlice

theorem AI.mem_all (i : AI) : i ∈ AI.all := by cases i <;> simp [AI.all]

theorem Attention.tens_map (l : Attention ℝ) (out : Tensor) : AI.all.map (fun i => (l.tens out i).id) = out.id :: l.temps.map Tensor.id := rfl

theorem Attention.sep {l : Attention ℝ} {z : AttnDims} {asIdx : ℝ → Int} {en : Bool} (ids : (l.toNet z asIdx en).ids.Nodup) {out : Tensor} (ho : out.id ∈ l.y.ids) :
    LSep l.ins l.ins (l.tens out) := by
  refine LSep.of AI.mem_all ?_
  rw [l.tens_map]
  simp only [NetLayer.ids, Attention.toNet] at ids
  rw [List.append_assoc] at ids
  refine ids.sublist ?_
  exact List.Sublist.append (List.Sublist.refl _) (List.Sublist.append (List.singleton_sublist.2 ho) (List.Sublist.refl (l.temps.map Tensor.id)))

theorem Attention.tens_ready {l : Attention ℝ} {out : Tensor} {s : Store ℝ} (h : AllReady (out :: l.temps) s) (i : AI) : (l.tens out i).Ready s := by
  have hm : l.tens out i ∈ out :: l.temps := by cases i <;> simp [Attention.tens, Attention.temps]
  exact h _ hm

theorem Attention.tens_mem {l : Attention ℝ} {out : Tensor} (i : AI) : (l.tens out i).id ∈ out.id :: l.temps.map Tensor.id := by
  rw [← l.tens_map]
  exact List.mem_map.2 ⟨i, i.mem_all, rfl⟩

theorem Attention.tens_mem' {l : Attention ℝ} {out : Tensor} {i : AI} (h : i ≠ .out) : (l.tens out i).id ∈ l.temps.map Tensor.id := by
  cases i <;> first | exact absurd rfl h | simp [Attention.tens, Attention.temps]

theorem Attention.all_ready {l : Attention ℝ} {out : Tensor} {s : Store ℝ} (h : ∀ i, (l.tens out i).Ready s) : AllReady (out :: l.temps) s := by
  intro T hT
  have : T ∈ AI.all.map (l.tens out) := hT
  obtain ⟨i, _, rfl⟩ := List.mem_map.1 this
  exact h i

theorem Attention.mem_ins (l : Attention ℝ) : l.xq ∈ l.ins ∧ l.xk ∈ l.ins ∧ l.xv ∈ l.ins ∧ l.wq ∈ l.ins ∧ l.wk ∈ l.ins ∧ l.wv ∈ l.ins ∧ l.w ∈ l.ins ∧
    (∀ m, l.biasQ = some m → m ∈ l.ins) ∧ (∀ m, l.biasK = some m → m ∈ l.ins) ∧ (∀ m, l.biasV = some m → m ∈ l.ins) ∧ (∀ m, l.biasOut = some m → m ∈ l.ins) ∧
    ∀ T, l.mask = some T → maskMoments T ∈ l.ins := by
  refine ⟨?_, ?_, ?_, ?_, ?_, ?_, ?_, ?_, ?_, ?_, ?_, ?_⟩
  all_goals first
    | (intro m hm
       simp only [Attention.ins, List.mem_append, List.mem_dedup, List.mem_cons, List.mem_filterMap, Option.mem_toList, hm]
       simp)
    | (simp only [Attention.ins, List.mem_append, List.mem_dedup, List.mem_cons]
       simp)

theorem scale_real {l : Attention ℝ} : l.scale = 1 / √(l.headSize : ℝ) := by
  simp only [Attention.scale, FP.pow]
  rw [Real.sqrt_eq_rpow]
  norm_num

end NNTile
