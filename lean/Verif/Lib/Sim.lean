import Verif.Model.Elementwise
import Verif.Spec.Ops
import Verif.Spec.Layer
import Verif.Lib.Core
/-!
# The same program over two scalar types

If the scalar operations which a program uses commute with a map `f : α → β`, so does the program.
-/
namespace NNTile
variable {α β : Type}

def Buf.map (f : α → β) (b : Buf α) : Buf β := ⟨b.size, fun i => (b.data i).map f⟩
def Store.map (f : α → β) (s : Store α) : Store β := fun h => (s h).map f

theorem Buf.rd_map (f : α → β) (b : Buf α) (i : Nat) : (b.map f).rd i = (b.rd i).map f := by
  unfold Buf.rd Buf.map
  simp only
  split
  · cases h : b.data i <;> rfl
  · rfl

theorem Buf.wr_map (f : α → β) (b : Buf α) (i : Nat) (v : α) : (b.map f).wr i (f v) = (b.wr i v).map (Buf.map f) := by
  unfold Buf.wr Buf.map
  simp only
  split
  · simp only [Except.map, Except.ok.injEq, Buf.mk.injEq, true_and]
    funext j
    split <;> rfl
  · rfl

theorem bind_map {γ δ γ' δ' : Type} (p : γ → γ') (q : δ → δ') (x : M γ) (k : γ → M δ) (k' : γ' → M δ') (h : ∀ a, k' (p a) = (k a).map q) :
    ((x.map p) >>= k') = (x >>= k).map q := by
  cases x with
  | error e => rfl
  | ok a => exact h a

theorem forN_map {σ τ : Type} (φ : σ → τ) {f : Nat → σ → M σ} {g : Nat → τ → M τ} (h : ∀ i x, g i (φ x) = (f i x).map φ) (n : Nat) (x : σ) :
    forN n g (φ x) = (forN n f x).map φ := by
  induction n with
  | zero => rfl
  | succ n ih =>
    simp only [forN, ih]
    exact bind_map φ φ _ _ _ fun a => h n a

/-- Tasks which do the same. -/
structure SimT (f : α → β) (t : Task1 α) (t' : Task1 β) : Prop where
  reads : t'.reads = t.reads
  out : t'.out = t.out
  mode : t'.mode = t.mode
  fn : ∀ rs b, t'.fn (rs.map (Buf.map f)) (b.map f) = (t.fn rs b).map (Buf.map f)

/-- Lists of tasks which do the same, or the same exception. -/
def SimA (f : α → β) (x : M (List (Task1 α))) (y : M (List (Task1 β))) : Prop :=
  (∃ e, x = .error e ∧ y = .error e) ∨ ∃ ts ts', x = .ok ts ∧ y = .ok ts' ∧ List.Forall₂ (SimT f) ts ts'

theorem SimA.bind {f : α → β} {γ : Type} (x : M γ) {k : γ → M (List (Task1 α))} {k' : γ → M (List (Task1 β))} (h : ∀ a, SimA f (k a) (k' a)) :
    SimA f (x >>= k) (x >>= k') := by
  cases x with
  | error e => exact .inl ⟨e, rfl, rfl⟩
  | ok a => exact h a

theorem SimA.single {f : α → β} {t : Task1 α} {t' : Task1 β} (h : SimT f t t') : SimA f (.ok [t]) (.ok [t']) := .inr ⟨_, _, rfl, rfl, .cons h .nil⟩

theorem SimA.nil {f : α → β} : SimA f (.ok []) (.ok []) := .inr ⟨_, _, rfl, rfl, .nil⟩

theorem SimA.append {f : α → β} {x y : M (List (Task1 α))} {x' y' : M (List (Task1 β))} (h : SimA f x x') (h' : SimA f y y') :
    SimA f (x >>= fun a => y >>= fun b => .ok (a ++ b)) (x' >>= fun a => y' >>= fun b => .ok (a ++ b)) := by
  rcases h with ⟨e, rfl, rfl⟩ | ⟨ts, ts', rfl, rfl, h⟩
  · exact .inl ⟨e, rfl, rfl⟩
  · rcases h' with ⟨e, rfl, rfl⟩ | ⟨us, us', rfl, rfl, h'⟩
    · exact .inl ⟨e, rfl, rfl⟩
    · exact .inr ⟨_, _, rfl, rfl, List.rel_append h h'⟩

theorem SimA.forTasks {f : α → β} {n : Nat} {g : Nat → M (List (Task1 α))} {g' : Nat → M (List (Task1 β))} (h : ∀ i, SimA f (g i) (g' i)) :
    SimA f (NNTile.forTasks n g) (NNTile.forTasks n g') := by
  induction n with
  | zero => exact .nil
  | succ n ih => exact ih.append (h n)

theorem Store.setAll_map (f : α → β) (s : Store α) (hs : List Handle) (bs : List (Buf α)) :
    (s.setAll hs bs).map f = (s.map f).setAll hs (bs.map (Buf.map f)) := by
  induction hs generalizing bs with
  | nil => cases bs <;> rfl
  | cons h hs ih =>
    cases bs with
    | nil => rfl
    | cons b bs =>
      funext k
      have := congrFun (ih bs) k
      simp only [Store.map] at this
      simp only [Store.map, Store.setAll, List.map_cons]
      split
      · rfl
      · exact this

theorem SimT.exec {f : α → β} {t : Task1 α} {t' : Task1 β} (h : SimT f t t') (s : Store α) :
    t'.toTask.exec (s.map f) = (t.toTask.exec s).map (Store.map f) := by
  have hv : (s.map f).view (t'.out, t'.mode) = (s.view (t.out, t.mode)).map f := by
    rw [h.out, h.mode]
    unfold Store.view
    cases t.mode <;> simp [Store.map, Buf.map, Buf.undef]
  unfold Task.exec
  have hc : (¬ t'.toTask.outs.Nodup ∨ ∃ k ∈ t'.toTask.outs, k ∈ t'.toTask.reads) ↔ (¬ t.toTask.outs.Nodup ∨ ∃ k ∈ t.toTask.outs, k ∈ t.toTask.reads) := by
    simp [Task.outs, Task1.toTask, h.out, h.reads]
  by_cases c : ¬ t.toTask.outs.Nodup ∨ ∃ k ∈ t.toTask.outs, k ∈ t.toTask.reads
  · rw [if_pos c, if_pos (hc.2 c)]; rfl
  · rw [if_neg c, if_neg (fun x => c (hc.1 x))]
    simp only [Task1.toTask, Task.outs, List.map_cons, List.map_nil]
    have hr : List.map (s.map f) t'.reads = (t.reads.map s).map (Buf.map f) := by
      rw [h.reads, List.map_map]; rfl
    rw [hr, hv, h.fn, h.out]
    cases t.fn (t.reads.map s) (s.view (t.out, t.mode)) with
    | error e => rfl
    | ok b =>
      show Except.ok _ = Except.ok _
      rw [Store.setAll_map]; rfl

theorem runAll1_sim {f : α → β} {ts : List (Task1 α)} {ts' : List (Task1 β)} (h : List.Forall₂ (SimT f) ts ts') (s : Store α) :
    runAll1 ts' (s.map f) = (runAll1 ts s).map (Store.map f) := by
  induction h generalizing s with
  | nil => rfl
  | cons h _ ih =>
    simp only [runAll1, List.map_cons, runAll] at ih ⊢
    rw [h.exec]
    exact bind_map _ _ _ _ _ fun a => ih a

theorem Tensor.get_map (f : α → β) (T : Tensor) (s : Store α) (I : List Nat) : T.get (s.map f) I = (T.get s I).map f := rfl

theorem Tensor.Ready.map_iff (f : α → β) {T : Tensor} {s : Store α} : T.Ready (s.map f) ↔ T.Ready s := Iff.rfl

theorem Tensor.Holds.map (f : α → β) {T : Tensor} {s : Store α} {v : List Nat → α} (h : T.Holds s v) : T.Holds (s.map f) (fun I => f (v I)) := by
  intro I hI
  rw [Tensor.get_map, h I hI]; rfl

theorem Tensor.Holds.of_map {f : α → β} (hf : Function.Injective f) {T : Tensor} {s : Store α} {v : List Nat → α} (h : T.Holds (s.map f) (fun I => f (v I))) :
    T.Holds s v := by
  intro I hI
  have := h I hI
  rw [Tensor.get_map] at this
  cases e : T.get s I with
  | none => rw [e] at this; cases this
  | some a =>
    rw [e] at this
    exact congrArg some (hf (Option.some.inj this))

theorem Buf.map_injective {f : α → β} (hf : Function.Injective f) : Function.Injective (Buf.map f) := by
  rintro ⟨n, d⟩ ⟨m, d'⟩ h
  simp only [Buf.map, Buf.mk.injEq] at h
  obtain ⟨rfl, h⟩ := h
  congr 1
  funext i
  exact Option.map_injective hf (congrFun h i)

theorem OnlyChanged.of_map {f : α → β} (hf : Function.Injective f) {ids : List Nat} {s s' : Store α} (h : OnlyChanged ids (s.map f) (s'.map f)) :
    OnlyChanged ids s s' := fun k hk => Buf.map_injective hf (h k hk)

/-- From the image to the original. -/
theorem Computes.of_sim {f : α → β} (hf : Function.Injective f) {x : M (List (Task1 α))} {y : M (List (Task1 β))} (h : SimA f x y) {s : Store α} {dst : Tensor}
    {v : List Nat → α} {w : List Nat → β} (hc : Computes y (s.map f) dst w) (hw : ∀ I, InBox dst.shape I → w I = f (v I)) : Computes x s dst v := by
  obtain ⟨ts', s2, e1, e2, e3, e4, e5⟩ := hc
  rcases h with ⟨e, rfl, rfl⟩ | ⟨ts, us, rfl, rfl, h⟩
  · cases e1
  · cases e1
    rw [runAll1_sim h] at e2
    cases e : runAll1 ts s with
    | error x => rw [e] at e2; cases e2
    | ok s1 =>
      rw [e] at e2
      cases e2
      refine ⟨ts, s1, rfl, e, Tensor.Holds.of_map hf fun I hI => ?_, e4.of_map hf, e5⟩
      rw [e3 I hI, hw I hI]

/-- From the original to the image. -/
theorem Runs.sim {f : α → β} {x : M (List (Task1 α))} {y : M (List (Task1 β))} (h : SimA f x y) {s : Store α} {ids : List Nat} {P : Store α → Prop}
    (hr : Runs x s ids P) : Runs y (s.map f) ids (fun s' => ∃ s1, s' = s1.map f ∧ P s1) := by
  obtain ⟨ts0, s1, e1, e2, e3, e4⟩ := hr
  rcases h with ⟨e, rfl, rfl⟩ | ⟨ts, us, rfl, rfl, h⟩
  · cases e1
  · cases e1
    refine ⟨us, s1.map f, rfl, by rw [runAll1_sim h, e2]; rfl, fun k hk => ?_, s1, rfl, e4⟩
    show (s1 k).map f = (s k).map f
    rw [e3 k hk]

/-! ### Tasks -/

theorem SimT.task0 {f : α → β} {name name' : String} {mode : WMode} {dst : Handle} {k : Buf α → M (Buf α)} {k' : Buf β → M (Buf β)}
    (h : ∀ b, k' (b.map f) = (k b).map (Buf.map f)) : SimT f (NNTile.task0 name mode dst k) (NNTile.task0 name' mode dst k') :=
  ⟨rfl, rfl, rfl, fun rs b => match rs with
    | [] => h b
    | _ :: _ => rfl⟩

theorem SimT.task1 {f : α → β} {name name' : String} {src : Handle} {mode : WMode} {dst : Handle} {k : Buf α → Buf α → M (Buf α)}
    {k' : Buf β → Buf β → M (Buf β)} (h : ∀ a b, k' (a.map f) (b.map f) = (k a b).map (Buf.map f)) :
    SimT f (NNTile.task1 name src mode dst k) (NNTile.task1 name' src mode dst k') :=
  ⟨rfl, rfl, rfl, fun rs b => match rs with
    | [] => rfl
    | [a] => h a b
    | _ :: _ :: _ => rfl⟩

theorem SimT.task2 {f : α → β} {name name' : String} {src1 src2 : Handle} {mode : WMode} {dst : Handle} {k : Buf α → Buf α → Buf α → M (Buf α)}
    {k' : Buf β → Buf β → Buf β → M (Buf β)} (h : ∀ a a' b, k' (a.map f) (a'.map f) (b.map f) = (k a a' b).map (Buf.map f)) :
    SimT f (NNTile.task2 name src1 src2 mode dst k) (NNTile.task2 name' src1 src2 mode dst k') :=
  ⟨rfl, rfl, rfl, fun rs b => match rs with
    | [] => rfl
    | [_] => rfl
    | [a, a'] => h a a' b
    | _ :: _ :: _ :: _ => rfl⟩

end NNTile
