import Verif.Lib.Schedule
import Verif.Lib.FlashBwdRun
/-! Tasks with two written handles. -/
namespace NNTile
variable {α : Type}

theorem runAll_flatMap {ι : Type} {l : List ι} {f g : ι → List (Task α)} (h : ∀ i ∈ l, ∀ s, runAll (f i) s = runAll (g i) s) (s : Store α) :
    runAll (l.flatMap f) s = runAll (l.flatMap g) s := by
  induction l generalizing s with
  | nil => rfl
  | cons i l ih =>
    rw [List.flatMap_cons, List.flatMap_cons, runAll_append, runAll_append, h i (by simp)]
    refine congrArg (runAll (g i) s >>= ·) ?_
    funext x
    exact ih (fun j hj => h j (by simp [hj])) x

theorem runAll_loops3 {gS gB gH : Nat} {G G' : Nat → Nat → Nat → List (Task α)} (h : ∀ i n m, i < gS → n < gB → m < gH → ∀ s, runAll (G i n m) s = runAll (G' i n m) s)
    (s : Store α) : runAll (loops3 gS gB gH G) s = runAll (loops3 gS gB gH G') s := by
  refine runAll_flatMap (fun m hm s => runAll_flatMap (fun n hn s => runAll_flatMap (fun i hi s => ?_) s) s) s
  rw [List.mem_range] at hi hn hm
  exact h i n m hi hn hm s

theorem map_loops3 {τ τ' : Type} {gS gB gH : Nat} {G : Nat → Nat → Nat → List τ} (f : τ → τ') : (loops3 gS gB gH G).map f = loops3 gS gB gH (fun i n m => (G i n m).map f) := by
  simp only [loops3, List.map_flatMap]

/-- A task with two written handles is the same as two tasks. -/
theorem runAll_pair (T : Task α) (u v : Task1 α) (hu : u.mode = .RW) (hv : v.mode = .RW) (hT : T.writes = [(u.out, .RW), (v.out, .RW)]) (r1 : u.reads = T.reads) (r2 : v.reads = T.reads)
    (hrun : ∀ rs b c, T.run rs [b, c] = (do
      let b ← u.fn rs b
      let c ← v.fn rs c
      .ok [b, c])) (huv : u.out ≠ v.out) (hur : u.out ∉ T.reads) (hvr : v.out ∉ T.reads) (s : Store α) : runAll [T] s = runAll ([u, v].map Task1.toTask) s := by
  have e1 : ∀ b, u.fn (u.reads.map s) (s u.out) = .ok b → u.toTask.exec s = .ok (fun k => if k = u.out then b else s k) := fun b hb => by
    refine Task1.exec_ok u s b (by rw [r1]; exact hur) ?_
    simpa [Task1.inp, hu] using hb
  simp only [runAll, List.map_cons, List.map_nil]
  rw [Task.exec, if_neg (by simp [Task.outs, hT, huv, hur, hvr])]
  simp only [hT, List.map_cons, List.map_nil, Store.view, hrun]
  cases hb : u.fn (u.reads.map s) (s u.out) with
  | error er =>
    have e2 : u.toTask.exec s = .error er := by
      rw [Task.exec, if_neg (by simp [Task1.toTask, Task.outs, r1, hur])]
      simp only [Task1.toTask, List.map_cons, List.map_nil, Store.view, hu, hb]
      rfl
    rw [e2]
    rw [r1] at hb
    rw [hb]
    rfl
  | ok b =>
    rw [e1 b hb, M.bind_ok]
    rw [r1] at hb
    have er : List.map (fun k => if k = u.out then b else s k) v.reads = T.reads.map s := by
      rw [r2]
      refine List.map_congr_left fun k hk => if_neg ?_
      rintro rfl
      exact hur hk
    rw [hb, M.bind_ok]
    cases hc : v.fn (T.reads.map s) (s v.out) with
    | error er' =>
      have : v.toTask.exec (fun k => if k = u.out then b else s k) = .error er' := by
        rw [Task.exec, if_neg (by simp [Task1.toTask, Task.outs, r2, hvr])]
        simp only [Task1.toTask, List.map_cons, List.map_nil, Store.view, hv, er, if_neg huv.symm, hc]
        rfl
      rw [this]
      rfl
    | ok c =>
      have : v.toTask.exec (fun k => if k = u.out then b else s k) = .ok (fun k => if k = v.out then c else if k = u.out then b else s k) := by
        refine Task1.exec_ok v _ c (by rw [r2]; exact hvr) ?_
        simp only [er, Task1.inp, hv, reduceCtorEq, if_false, if_neg huv.symm, hc]
      rw [this]
      simp only [M.bind_ok, Task.outs, hT, List.map_cons, List.map_nil, Store.setAll]
      congr 1
      funext k
      by_cases h1 : k = u.out
      · subst h1
        simp [huv]
      · simp [h1]

namespace FlashBwd
variable {F : FlashBwd} {z t : AttnDims} [FP α]
variable (asBool : α → Bool) (ninf : α) (h : F.Fits z t)
include h

theorem split_ok : ∃ ts ts1, flashBackwardTasks asBool ninf F.Q F.dQ F.K F.dK F.V F.dV F.mask F.mse F.dA F.tmp F.tmpGrad F.sps = .ok ts ∧
    flashBackwardAsync asBool ninf F.Q F.dQ F.K F.dK F.V F.dV F.mask F.mse F.dA F.tmp F.tmpGrad F.sps = .ok ts1 ∧ ∀ s, runAll ts s = runAll1 ts1 s := by
  rw [flashBackwardTasks, flashBackwardLoops_ok h.tiles h.pos _ _ _ (h.heads _ (by simp)) (h.heads _ (by simp)) (h.heads _ (by simp)) (h.heads _ (by simp)) (h.heads _ (by simp))
    (h.heads _ (by simp)) h.mask h.mse (h.heads _ (by simp)) h.tmp h.tmpGrad h.sps]
  refine ⟨_, _, rfl, backward_ok asBool ninf h, fun s => ?_⟩
  have ne : ∀ x y : Ix, x ≠ y → ∀ l l', hd (F.tens x) l ≠ hd (F.tens y) l' := fun x y hxy l l' => hd_ne h hxy l l'
  have mem : ∀ x : Ix, ∀ l, ∀ ks : List (Ix × List Nat), (∀ k ∈ ks, k.1 ≠ x) → hd (F.tens x) l ∉ ks.map (fun k => hd (F.tens k.1) k.2) := by
    intro x l ks hk hm
    rw [List.mem_map] at hm
    obtain ⟨k, hk', e⟩ := hm
    exact ne _ _ (hk k hk') _ _ e
  rw [runAll1, List.map_append, runAll_append, runAll_append, list1, list2, map_loops3, map_loops3]
  have e1 : ∀ s, runAll (loops3 (z.S / t.S) (z.B / t.B) (z.H / t.H) (fun i n m => [(submitClear (α := α) (F.dQ.id, lin F.dQ.grid [0, i, n, m])).toTask] ++
      [(submitClear (F.dK.id, lin F.dK.grid [0, i, n, m])).toTask] ++ [(submitClear (F.dV.id, lin F.dV.grid [0, i, n, m])).toTask] ++
      (List.range (z.S / t.S)).flatMap (fun j => [submitFlashBackward1 asBool ninf t.S z.D (t.B * t.H) (F.K.id, lin F.K.grid [0, i, n, m])
          (F.Q.id, lin F.Q.grid [0, j, n, m]) (F.mask.id, lin F.mask.grid [i, j]) (F.mse.id, lin F.mse.grid [0, j, n, m]) (F.dA.id, lin F.dA.grid [0, j, n, m])
          (F.V.id, lin F.V.grid [0, i, n, m]) (F.dV.id, lin F.dV.grid [0, i, n, m]) (F.sps.id, lin F.sps.grid [j, n, m]) [t.S, t.S, t.B, t.H].prod [t.S, t.S, t.B, t.H].prod]))) s =
      runAll (loops3 (z.S / t.S) (z.B / t.B) (z.H / t.H) (fun i n m => (body1 F z t asBool ninf i n m).map Task1.toTask)) s := by
    refine runAll_loops3 fun i n m hi hn hm s => ?_
    rw [body1, List.map_append]
    refine (runAll_append _ _ s).trans (Eq.trans ?_ (runAll_append _ _ s).symm)
    refine congrArg₂ (· >>= ·) rfl ?_
    funext s
    rw [List.map_flatMap]
    refine runAll_flatMap (fun j hj s => ?_) s
    refine runAll_pair _ (dvT F z t asBool ninf i n m j) (spT F z t asBool ninf i n m j) rfl rfl rfl rfl rfl ?_ (ne .dV .sps (by decide) _ _) ?_ ?_ s
    · intro rs b c
      rcases rs with _ | ⟨a1, _ | ⟨a2, _ | ⟨a3, _ | ⟨a4, _ | ⟨a5, _ | ⟨a6, _ | ⟨a7, rs⟩⟩⟩⟩⟩⟩⟩ <;> rfl
    · exact mem .dV _ [(.K, [0, i, n, m]), (.Q, [0, j, n, m]), (.mask, [i, j]), (.mse, [0, j, n, m]), (.dA, [0, j, n, m]), (.V, [0, i, n, m])] (by simp)
    · exact mem .sps _ [(.K, [0, i, n, m]), (.Q, [0, j, n, m]), (.mask, [i, j]), (.mse, [0, j, n, m]), (.dA, [0, j, n, m]), (.V, [0, i, n, m])] (by simp)
  refine congrArg₂ (· >>= ·) (e1 s) ?_
  funext s
  refine runAll_loops3 (fun i n m hi hn hm s => ?_) s
  rw [body2, List.map_flatMap]
  refine runAll_flatMap (fun j hj s => ?_) s
  refine runAll_pair _ (dqT F z t asBool ninf i n m j) (dkT F z t asBool ninf i n m j) rfl rfl rfl rfl rfl ?_ (ne .dQ .dK (by decide) _ _) ?_ ?_ s
  · intro rs b c
    rcases rs with _ | ⟨a1, _ | ⟨a2, _ | ⟨a3, _ | ⟨a4, _ | ⟨a5, _ | ⟨a6, _ | ⟨a7, _ | ⟨a8, rs⟩⟩⟩⟩⟩⟩⟩⟩ <;> rfl
  · exact mem .dQ _ [(.K, [0, i, n, m]), (.Q, [0, j, n, m]), (.mask, [i, j]), (.mse, [0, j, n, m]), (.dA, [0, j, n, m]), (.V, [0, i, n, m]), (.sps, [j, n, m])] (by simp)
  · exact mem .dK _ [(.K, [0, i, n, m]), (.Q, [0, j, n, m]), (.mask, [i, j]), (.mse, [0, j, n, m]), (.dA, [0, j, n, m]), (.V, [0, i, n, m]), (.sps, [j, n, m])] (by simp)

end FlashBwd
end NNTile
