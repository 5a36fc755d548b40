import Verif.Lib.ReduxFine
import Verif.Lib.ReduxMseReal
import Verif.Lib.ReduxSlice
import Verif.Lib.ReduxFiber
import Verif.Lib.MseTensor
import Verif.Lib.GemmTensor
import Verif.Model.Reductions
/-! Operations which submit only tasks which can be executed with replicas. -/
namespace NNTile

/-- The codelets with what is known about them. -/
noncomputable def ReduxKind.red : ReduxKind → Reduction ℝ
  | .add => redAdd
  | .hypot => redHyp
  | .maxsumexp => redMse

theorem ReduxKind.red_cl (k : ReduxKind) : k.red.cl = (k.cl : ReduxCl ℝ) := by cases k <;> rfl

/-- The task contributes the same to all contents. -/
def AccK (k : ReduxKind) (n : Nat) (f : Buf ℝ → M (Buf ℝ)) : Prop :=
  ∀ b b', b.size = n → (k = .maxsumexp → NN b) → f b = .ok b' → k.red.D b ∧ ∃ g, ∀ c, c.size = n → k.red.D c → f c = .ok (k.red.act g c)

variable {N : Handle → Nat} {kd : Handle → Option ReduxKind}

/-- The task can be executed with replicas. -/
def Task1.Redc (N : Handle → Nat) (kd : Handle → Option ReduxKind) (t : Task1 ℝ) : Prop :=
  (∀ rs b, SzAt b.size (t.fn rs b)) ∧ (t.mode = .REDUX → ∃ k, kd t.out = some k ∧ ∀ rs, AccK k (N t.out) (t.fn rs)) ∧
    (kd t.out = some .maxsumexp → ∀ rs b b', NN b → t.fn rs b = .ok b' → NN b')

/-- The codelets of a tile. -/
noncomputable def redOf (kd : Handle → Option ReduxKind) (h : Handle) : Reduction ℝ := ((kd h).getD .add).red

theorem Redc.run {ts : List (Task1 ℝ)} (h : ∀ t ∈ ts, t.Redc N kd) {s s' : Store ℝ} (hN : ∀ h, (s h).size = N h) (hn : ∀ h, kd h = some .maxsumexp → NN (s h))
    (e : runAll1 ts s = .ok s') : RunG (redOf kd) ts s s' := by
  induction ts generalizing s with
  | nil => exact Except.ok.inj e
  | cons t ts ih =>
    change (do
      let s ← t.toTask.exec s
      runAll1 ts s) = _ at e
    rw [M.bind_eq_ok] at e
    obtain ⟨s1, e1, e2⟩ := e
    obtain ⟨h1, h2, h3⟩ := h t (by simp)
    have hx := e1
    obtain ⟨hnr, b, hb, rfl⟩ := Task1.exec_iff.1 e1
    have hv : (s.view (t.out, t.mode)).size = N t.out := by
      rw [← hN]
      cases t.mode <;> rfl
    refine ⟨_, ⟨hx, fun hm => ?_⟩, ih (fun u hu => h u (by simp [hu])) (fun k => ?_) (fun k hk => ?_) e2⟩
    · rw [hm] at hb
      obtain ⟨kk, hk, h2⟩ := h2 hm
      obtain ⟨d, g, hg⟩ := h2 (t.reads.map s) (s t.out) b (hN _) (fun e => hn _ (by rw [hk, e])) hb
      have hr : redOf kd t.out = kk.red := by rw [redOf, hk]; rfl
      unfold Task1.GoodAt
      rw [hr]
      exact ⟨d, g, fun c hc hd => hg c (hc.trans (hN _)) hd⟩
    · by_cases c : k = t.out
      · rw [if_pos c, c]; exact (h1 _ _ _ hb).trans hv
      · rw [if_neg c]; exact hN k
    · by_cases c : k = t.out
      · rw [if_pos c]
        subst c
        refine h3 hk _ _ _ ?_ hb
        cases t.mode
        · intro i v hv
          simp [Store.view, Buf.undef] at hv
        · exact hn _ hk
        · exact hn _ hk
      · rw [if_neg c]; exact hn k hk

theorem Acc.accK_add {n : Nat} {f : Buf ℝ → M (Buf ℝ)} (h : Acc opAdd (fun i => i < n) f) : AccK .add n f := by
  rintro b b' rfl - hb
  obtain ⟨d, W, hW⟩ := h b b' hb
  refine ⟨fun i hi => (d i hi).2, W, fun c hc hd => ?_⟩
  obtain ⟨c', e1, e2, e3, e4⟩ := hW c hc (fun i hi => hd i (by omega))
  refine e1.trans ?_
  congr 1
  cases c' with | mk n dt =>
  change n = c.size at e2
  subst e2
  change Buf.mk _ _ = Buf.mk _ _
  congr 1
  funext i
  by_cases hi : i < c.size
  · rw [if_pos hi]; exact e3 i (by omega)
  · rw [if_neg hi]; exact e4 i (by omega)

theorem Acc.accK_hyp {n : Nat} {f : Buf ℝ → M (Buf ℝ)} (h : Acc opHyp (fun i => i < n) f) : AccK .hypot n f := by
  rintro b b' rfl - hb
  obtain ⟨d, W, hW⟩ := h b b' hb
  refine ⟨fun i hi => (d i hi).2, W, fun c hc hd => ?_⟩
  obtain ⟨c', e1, e2, e3, e4⟩ := hW c hc (fun i hi => hd i (by omega))
  refine e1.trans ?_
  congr 1
  cases c' with | mk n dt =>
  change n = c.size at e2
  subst e2
  change Buf.mk _ _ = Buf.mk _ _
  congr 1
  funext i
  by_cases hi : i < c.size
  · rw [if_pos hi]; exact e3 i (by omega)
  · rw [if_neg hi]; exact e4 i (by omega)

theorem AccM.accK {n : Nat} {f : Buf ℝ → M (Buf ℝ)} (h : AccM (fun i => i < n) f) : AccK .maxsumexp (2 * n) f := by
  intro b b' hb hn e
  have h2 : b.size / 2 = n := by omega
  obtain ⟨d, W, hW⟩ := h b b' (hn rfl) e
  refine ⟨fun i hi => (d i (by omega)).2, W, fun c hc hd => ?_⟩
  have h3 : c.size / 2 = n := by omega
  have := hW c (by omega) (fun i hi => hd i (by omega))
  rw [this]
  change _ = Except.ok (pact (fun i => i < c.size / 2) W c)
  rw [h3]

/-- A tensor which is allocated, whose tiles have codelets of this kind. -/
def Tgt (N : Handle → Nat) (kd : Handle → Option ReduxKind) (k : ReduxKind) (T : Tensor) : Prop :=
  T.WF ∧ ∀ t, InBox T.grid t → N (T.id, lin T.grid t) = (T.tshape t).prod ∧ kd (T.id, lin T.grid t) = some k

/-- A tensor whose tiles are not for pairs of a maximum and a sum. -/
def NoMse (kd : Handle → Option ReduxKind) (T : Tensor) : Prop := ∀ i, kd (T.id, i) ≠ some .maxsumexp

theorem Task1.PlainTo.redc {T : Tensor} {t : Task1 ℝ} (h : t.PlainTo T.id) (hk : NoMse kd T) : t.Redc N kd :=
  ⟨h.2.1, fun hm => absurd hm h.1, fun e => absurd (show kd (T.id, t.out.2) = _ by rw [← h.2.2]; exact e) (hk _)⟩

theorem AllT.redc {T : Tensor} {a : M (List (Task1 ℝ))} (h : AllT (Task1.PlainTo T.id) a) (hk : NoMse kd T) : AllT (Task1.Redc N kd) a := h.imp fun _ h => h.redc hk

theorem Redc.of {t : Task1 ℝ} {k : ReduxKind} {n : Nat} (h1 : ∀ rs b, SzAt b.size (t.fn rs b)) (hk : kd t.out = some k) (hn : N t.out = n) (hne : k ≠ .maxsumexp)
    (h : t.mode = .REDUX → ∀ rs, AccK k n (t.fn rs)) : t.Redc N kd :=
  ⟨h1, fun hm => ⟨k, hk, fun rs => by rw [hn]; exact h hm rs⟩, fun e => absurd (Option.some.inj (hk.symm.trans e)) hne⟩

theorem AccK.error {k : ReduxKind} {n : Nat} {e : Err} : AccK k n (fun _ => .error e) := fun _ _ _ _ h => by cases h

theorem accK_task1 {k : ReduxKind} {n : Nat} {name : String} {mode : WMode} {src dst : Handle} {f : Buf ℝ → Buf ℝ → M (Buf ℝ)} (h : ∀ a, AccK k n (f a)) (rs : List (Buf ℝ)) :
    AccK k n ((task1 name src mode dst f).fn rs) := by
  unfold task1
  dsimp only
  split
  · exact h _
  · exact AccK.error

theorem accK_task2 {k : ReduxKind} {n : Nat} {name : String} {mode : WMode} {src src' dst : Handle} {f : Buf ℝ → Buf ℝ → Buf ℝ → M (Buf ℝ)} (h : ∀ a a', AccK k n (f a a'))
    (rs : List (Buf ℝ)) : AccK k n ((task2 name src src' mode dst f).fn rs) := by
  unfold task2
  dsimp only
  split
  · exact h _ _
  · exact AccK.error

theorem sz_task1 {name : String} {mode : WMode} {src dst : Handle} {f : Buf ℝ → Buf ℝ → M (Buf ℝ)} (h : ∀ a b, SzAt b.size (f a b)) (rs : List (Buf ℝ)) (b : Buf ℝ) :
    SzAt b.size ((task1 name src mode dst f).fn rs b) := by
  unfold task1
  dsimp only
  split
  · exact h _ _
  · exact SzAt.error
theorem sz_task2 {name : String} {mode : WMode} {src src' dst : Handle} {f : Buf ℝ → Buf ℝ → Buf ℝ → M (Buf ℝ)} (h : ∀ a a' b, SzAt b.size (f a a' b)) (rs : List (Buf ℝ)) (b : Buf ℝ) :
    SzAt b.size ((task2 name src src' mode dst f).fn rs b) := by
  unfold task2
  dsimp only
  split
  · exact h _ _ _
  · exact SzAt.error

theorem throwIf_ok {p : Prop} [Decidable p] {m : String} {x : Unit} (h : throwIf p m = .ok x) : ¬ p := by
  intro c
  rw [throwIf_pos c] at h
  cases h

theorem Check.of_ok {x : M Unit} {p : Prop} {u : Unit} (h : Check x p) (e : x = .ok u) : p := by
  by_contra c
  obtain ⟨m, h⟩ := h.bad c
  rw [h] at e
  cases e

theorem gemmKernel_sz {tA tB : TransOp} {m n k bt : Nat} {al be : ℝ} {A B : Buf ℝ} (b : Buf ℝ) : SzAt b.size (gemmKernel tA tB m n k bt al A B be b) := by
  unfold gemmKernel
  sz

theorem sumSliceKernel_sz {m n k : Nat} {al be : ℝ} {a : Buf ℝ} (b : Buf ℝ) : SzAt b.size (sumSliceKernel m n k al a be b) := by
  unfold sumSliceKernel storeSum
  sz
theorem sumprodSliceKernel_sz {m n k : Nat} {al be : ℝ} {a a' : Buf ℝ} (b : Buf ℝ) : SzAt b.size (sumprodSliceKernel m n k al a a' be b) := by
  unfold sumprodSliceKernel storeSum
  sz
theorem normSliceKernel_sz {m n k : Nat} {al be : ℝ} {a : Buf ℝ} (b : Buf ℝ) : SzAt b.size (normSliceKernel m n k al a be b) := by
  unfold normSliceKernel storeNorm
  sz
theorem sumFiberKernel_sz {m n k bt : Nat} {al be : ℝ} {a : Buf ℝ} (b : Buf ℝ) : SzAt b.size (sumFiberKernel m n k bt al a be b) := by
  unfold sumFiberKernel storeSum
  sz
theorem sumprodFiberKernel_sz {m n k : Nat} {al be : ℝ} {a a' : Buf ℝ} (b : Buf ℝ) : SzAt b.size (sumprodFiberKernel m n k al a a' be b) := by
  unfold sumprodFiberKernel storeSum
  sz
theorem maxsumexpKernel_sz {m n k : Nat} {a : Buf ℝ} (b : Buf ℝ) : SzAt b.size (maxsumexpKernel m n k a b) := by
  unfold maxsumexpKernel mseStore
  sz

end NNTile
