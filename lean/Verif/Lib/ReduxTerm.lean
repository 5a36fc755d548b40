import Verif.Lib.ReduxRun
import Mathlib.Algebra.BigOperators.Group.Finset.Basic
import Mathlib.Data.List.Nodup
/-! Executions with replicas have an end. -/
namespace NNTile
open Finset
variable {α : Type}

/-- Handles which are written. -/
def outsOf (ts : List (Task1 α)) : Finset Handle := (ts.map Task1.out).toFinset

/-- The number of replicas, and twice the number of the tasks which are not done. -/
def RState.meas (ts : List (Task1 α)) (σ : RState α) : Nat := 2 * (ts.length - σ.done.length) + ∑ h ∈ outsOf ts, (σ.reps h).length

structure RState.Fine (ts : List (Task1 α)) (σ : RState α) : Prop where
  nodup : σ.done.Nodup
  lt : ∀ i ∈ σ.done, i < ts.length
  outs : ∀ h, σ.reps h ≠ [] → h ∈ outsOf ts

theorem sum_upd {F : Finset Handle} {h : Handle} (hF : h ∈ F) (r : Handle → List (Buf α)) (l : List (Buf α)) :
    ∑ k ∈ F, (if k = h then l else r k).length + (r h).length = ∑ k ∈ F, (r k).length + l.length := by
  rw [← add_sum_erase F _ hF, ← add_sum_erase F (fun k => (r k).length) hF]
  have : ∑ k ∈ F.erase h, (if k = h then l else r k).length = ∑ k ∈ F.erase h, (r k).length :=
    sum_congr rfl (fun k hk => by rw [if_neg (ne_of_mem_erase hk)])
  rw [this]
  simp only [if_true]
  omega

theorem RState.Fine.length_lt {ts : List (Task1 α)} {σ : RState α} (hi : σ.Fine ts) {i : Nat} {t : Task1 α} (e : σ.Enabled ts i t) : σ.done.length < ts.length ∧ i < ts.length := by
  have h1 : i < ts.length := by
    have := e.1
    rw [List.getElem?_eq_some_iff] at this
    exact this.1
  refine ⟨?_, h1⟩
  have h2 : (i :: σ.done).Nodup := List.nodup_cons.2 ⟨e.2.1, hi.nodup⟩
  have h3 : (i :: σ.done) ⊆ List.range ts.length := by
    intro j hj
    rcases List.mem_cons.1 hj with rfl | hj
    · exact List.mem_range.2 h1
    · exact List.mem_range.2 (hi.lt j hj)
  have := (h2.subperm h3).length_le
  simp only [List.length_cons, List.length_range] at this
  omega

theorem RState.Enabled.out {ts : List (Task1 α)} {σ : RState α} {i : Nat} {t : Task1 α} (e : σ.Enabled ts i t) : t.out ∈ outsOf ts := by
  unfold outsOf
  rw [List.mem_toFinset]
  exact List.mem_map.2 ⟨t, List.mem_of_getElem? e.1, rfl⟩

theorem RState.Fine.more {ts : List (Task1 α)} {σ : RState α} (hi : σ.Fine ts) {i : Nat} {t : Task1 α} (e : σ.Enabled ts i t) :
    (i :: σ.done).Nodup ∧ ∀ j ∈ i :: σ.done, j < ts.length := by
  refine ⟨List.nodup_cons.2 ⟨e.2.1, hi.nodup⟩, fun j hj => ?_⟩
  rcases List.mem_cons.1 hj with rfl | hj
  · exact (hi.length_lt e).2
  · exact hi.lt j hj

theorem RStep.decreases {ts : List (Task1 α)} {R : Handle → ReduxCl α} {σ σ' : RState α} (hi : σ.Fine ts) {r : M (RState α)} (e : RStep ts R σ r) (hr : r = .ok σ') :
    σ'.Fine ts ∧ σ'.meas ts < σ.meas ts := by
  have upd : ∀ {h : Handle} {l : List (Buf α)}, h ∈ outsOf ts → ∀ k, (if k = h then l else σ.reps k) ≠ [] → k ∈ outsOf ts := by
    intro h l hh k hk
    by_cases c : k = h
    · rw [c]; exact hh
    · rw [if_neg c] at hk; exact hi.outs k hk
  cases e with
  | plain e hm _ =>
    rw [M.bind_eq_ok] at hr
    obtain ⟨s, -, hr⟩ := hr
    cases Except.ok.inj hr
    have := hi.length_lt e
    refine ⟨⟨(hi.more e).1, (hi.more e).2, hi.outs⟩, ?_⟩
    simp only [RState.meas, RState.withDone, List.length_cons]
    omega
  | onTile e hm =>
    rw [M.bind_eq_ok] at hr
    obtain ⟨s, -, hr⟩ := hr
    cases Except.ok.inj hr
    have := hi.length_lt e
    refine ⟨⟨(hi.more e).1, (hi.more e).2, hi.outs⟩, ?_⟩
    simp only [RState.meas, RState.withDone, List.length_cons]
    omega
  | onNew e hm =>
    simp only [M.bind_eq_ok] at hr
    obtain ⟨b, -, b', -, hr⟩ := hr
    cases Except.ok.inj hr
    rename_i i t
    have := hi.length_lt e
    refine ⟨⟨(hi.more e).1, (hi.more e).2, upd e.out⟩, ?_⟩
    have h2 := sum_upd e.out σ.reps (b' :: σ.reps t.out)
    simp only [RState.meas, RState.withDone, RState.withReps, List.length_cons] at h2 ⊢
    omega
  | onReplica e hm hl =>
    simp only [M.bind_eq_ok] at hr
    obtain ⟨b', -, hr⟩ := hr
    cases Except.ok.inj hr
    rename_i i t l l' b
    have := hi.length_lt e
    refine ⟨⟨(hi.more e).1, (hi.more e).2, upd e.out⟩, ?_⟩
    have h2 := sum_upd e.out σ.reps (l ++ b' :: l')
    rw [hl] at h2
    simp only [RState.meas, RState.withDone, RState.withReps, List.length_cons, List.length_append] at h2 ⊢
    omega
  | merge hl =>
    simp only [M.bind_eq_ok] at hr
    obtain ⟨b', -, hr⟩ := hr
    cases Except.ok.inj hr
    rename_i h l l' b
    have hh := hi.outs h (by rw [hl]; simp)
    refine ⟨⟨hi.nodup, hi.lt, upd hh⟩, ?_⟩
    have h2 := sum_upd hh σ.reps (l ++ l')
    rw [hl] at h2
    simp only [RState.meas, RState.withMain, RState.withReps, List.length_cons, List.length_append] at h2 ⊢
    omega
  | mergeReplicas hl hd =>
    simp only [M.bind_eq_ok] at hr
    obtain ⟨b', -, hr⟩ := hr
    cases Except.ok.inj hr
    rename_i h l l' k k' c d
    have hh := hi.outs h (by rw [hl]; simp)
    refine ⟨⟨hi.nodup, hi.lt, upd hh⟩, ?_⟩
    have h2 := sum_upd hh σ.reps (k ++ b' :: k')
    have h3 := congrArg List.length hd
    rw [hl] at h2
    simp only [RState.meas, RState.withReps, List.length_cons, List.length_append] at h2 h3 ⊢
    omega

/-- The number of steps is bounded. -/
theorem RStep.bounded {ts : List (Task1 α)} {R : Handle → ReduxCl α} {s : Store α} {f : Nat → RState α} (h0 : f 0 = ⟨s, fun _ => [], []⟩) {n : Nat}
    (h : ∀ i, i < n → RStep ts R (f i) (.ok (f (i + 1)))) : n ≤ 2 * ts.length := by
  have key : ∀ i, i ≤ n → (f i).Fine ts ∧ (f i).meas ts + i ≤ 2 * ts.length := by
    intro i
    induction i with
    | zero =>
      intro _
      rw [h0]
      refine ⟨⟨List.nodup_nil, by simp, fun h hh => absurd rfl hh⟩, ?_⟩
      simp [RState.meas]
    | succ i ih =>
      intro hi
      obtain ⟨h1, h2⟩ := ih (by omega)
      obtain ⟨h3, h4⟩ := (h i (by omega)).decreases h1 rfl
      exact ⟨h3, by omega⟩
  have := (key n le_rfl).2
  omega

end NNTile
