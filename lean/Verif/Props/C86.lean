import Verif.Model.Config
import Mathlib.Tactic
/-!
# C86: StarPU is started and ended by the objects of class `Config`
-/
namespace NNTile.Conf

/-- Calls of StarPU which are properly nested in time: at no point were there more ends than starts, and cuBLAS is used only between start and end of StarPU. `n` and `m` starts of StarPU and cuBLAS have not ended. -/
inductive Balanced : List Call → Nat → Nat → Prop where
  | nil : Balanced [] 0 0
  | init {l n m} : Balanced l n m → Balanced (l ++ [.init]) (n + 1) m
  | cublasInit {l n m} : Balanced l n m → 0 < n → Balanced (l ++ [.cublasInit]) n (m + 1)
  | cublasShutdown {l n m} : Balanced l n (m + 1) → 0 < n → Balanced (l ++ [.cublasShutdown]) n m
  | shutdown {l n m} : Balanced l (n + 1) m → Balanced (l ++ [.shutdown]) n m

/-- Scoped use of the class, as in C++ a local variable: objects are constructed (with or without success) and each is destroyed at most once. `alive` lists which objects are alive. -/
def Scoped : List Bool → List Op → Prop
  | _, [] => True
  | alive, .construct _ a b :: ops => Scoped (if a = true ∧ b = true then alive ++ [true] else alive) ops
  | alive, .destroy i :: ops => alive[i]? = some true ∧ Scoped (alive.set i false) ops
  | _, .copy _ :: _ => False
  | _, .shutdown _ :: _ => False

/-- Number of objects which are alive. -/
def World.alive (w : World) : Nat := w.objects.countP Option.isSome

/-- Number of objects which are alive and use cuBLAS. -/
def World.aliveCublas (cuda : Bool) (w : World) : Nat := w.objects.countP fun o => cuda && o.any (fun c => decide (c ≠ 0))

private structure Inv (cuda : Bool) (w : World) : Prop where
  count : w.count = w.alive
  cublas : w.cublas = w.aliveCublas cuda
  bal : Balanced w.log w.count w.cublas

private theorem countP_set {p : Option Int → Bool} (hp : p none = false) : ∀ {l : List (Option Int)} {i : Nat} {o : Option Int}, l[i]? = some o →
    l.countP p = (l.set i none).countP p + (if p o = true then 1 else 0)
  | [], i, o, h => by simp at h
  | a :: l, 0, o, h => by
    simp only [List.getElem?_cons_zero, Option.some.injEq] at h
    subst h
    simp [List.countP_cons, hp]
  | a :: l, i + 1, o, h => by
    simp only [List.getElem?_cons_succ] at h
    simp only [List.set_cons_succ, List.countP_cons, countP_set hp h]
    omega

private theorem Inv.construct {cuda : Bool} {w : World} (hw : Inv cuda w) (c : Int) :
    ∃ v, w.construct cuda c true true = .ok v ∧ Inv cuda v ∧ v.objects = w.objects ++ [some c] := by
  obtain ⟨h1, h2, h3⟩ := hw
  by_cases h : cuda = true ∧ c ≠ 0
  · refine ⟨{ w.starpuInit.cublasInit with objects := w.objects ++ [some c] }, ?_, ⟨?_, ?_, ?_⟩, rfl⟩
    · simp [World.construct, h, World.starpuInit, World.cublasInit]
    · simp [World.starpuInit, World.cublasInit, World.alive, h1]
    · simp [World.starpuInit, World.cublasInit, World.aliveCublas, h2, h]
    · exact .cublasInit (.init h3) (Nat.succ_pos _)
  · refine ⟨{ w.starpuInit with objects := w.objects ++ [some c] }, ?_, ⟨?_, ?_, ?_⟩, rfl⟩
    · simp only [World.construct, h, if_false]; rfl
    · simp [World.starpuInit, World.alive, h1]
    · have : (cuda && (some c).any fun c => decide (c ≠ 0)) = false := by
        cases cuda <;> simp_all
      simp only [World.starpuInit, World.aliveCublas, h2, List.countP_append, List.countP_singleton, this]
      simp
    · exact .init h3

private theorem Inv.destroy {cuda : Bool} {w : World} (hw : Inv cuda w) {i : Nat} {c : Int} (hi : w.objects[i]? = some (some c)) :
    ∃ v, w.destroy cuda i = .ok v ∧ Inv cuda v ∧ v.objects = w.objects.set i none := by
  obtain ⟨h1, h2, h3⟩ := hw
  have e1 := countP_set (p := Option.isSome) rfl hi
  have e2 := countP_set (p := fun o => cuda && o.any (fun c => decide (c ≠ 0))) (by simp) hi
  simp only [Option.isSome_some, if_true] at e1
  have hc : w.count = (w.count - 1) + 1 := by rw [h1]; unfold World.alive; omega
  have hc0 : w.count ≠ 0 := by omega
  by_cases h : cuda = true ∧ c ≠ 0
  · have hp : (cuda && (some c).any fun c => decide (c ≠ 0)) = true := by simp [h]
    rw [if_pos hp] at e2
    have hm : w.cublas = (w.cublas - 1) + 1 := by rw [h2]; unfold World.aliveCublas; omega
    have hm0 : w.cublas ≠ 0 := by omega
    refine ⟨⟨w.count - 1, w.cublas - 1, w.objects.set i none, w.log ++ [.cublasShutdown] ++ [.shutdown]⟩, ?_, ⟨?_, ?_, ?_⟩, rfl⟩
    · simp only [World.destroy, World.shutdown, hi, h, and_self, if_true, World.cublasShutdown, World.starpuShutdown, hc0, hm0, or_self, if_false, ne_eq, not_false_eq_true]
    · show w.count - 1 = (w.objects.set i none).countP Option.isSome
      rw [h1]; unfold World.alive; omega
    · show w.cublas - 1 = (w.objects.set i none).countP _
      rw [h2]; unfold World.aliveCublas; omega
    · rw [hm] at h3
      have := Balanced.cublasShutdown h3 (by omega)
      rw [hc] at this
      exact .shutdown this
  · have hp : ¬ (cuda && (some c).any fun c => decide (c ≠ 0)) = true := by
      intro hp
      rw [Bool.and_eq_true, Option.any_some, decide_eq_true_iff] at hp
      exact h hp
    rw [if_neg hp] at e2
    refine ⟨⟨w.count - 1, w.cublas, w.objects.set i none, w.log ++ [.shutdown]⟩, ?_, ⟨?_, ?_, ?_⟩, rfl⟩
    · simp only [World.destroy, World.shutdown, hi, h, if_false, World.starpuShutdown, hc0]
    · show w.count - 1 = (w.objects.set i none).countP Option.isSome
      rw [h1]; unfold World.alive; omega
    · show w.cublas = (w.objects.set i none).countP _
      rw [h2]; unfold World.aliveCublas; omega
    · rw [hc] at h3
      exact .shutdown h3

private theorem Inv.run {cuda : Bool} : ∀ {ops : List Op} {w : World}, Inv cuda w → Scoped (w.objects.map Option.isSome) ops → ∃ v, run cuda w ops = .ok v ∧ Inv cuda v
  | [], w, hw, _ => ⟨w, rfl, hw⟩
  | .copy _ :: _, _, _, h => h.elim
  | .shutdown _ :: _, _, _, h => h.elim
  | .construct c a b :: ops, w, hw, h => by
    by_cases hab : a = true ∧ b = true
    · obtain ⟨rfl, rfl⟩ := hab
      obtain ⟨v, e, hv, ho⟩ := hw.construct c
      obtain ⟨u, eu, hu⟩ := Inv.run (ops := ops) hv (by rw [ho]; simpa [Scoped] using h)
      exact ⟨u, by simp only [Conf.run, step, e, eu], hu⟩
    · have e : w.construct cuda c a b = .raised w := by
        cases a <;> cases b <;> simp_all [World.construct]
      obtain ⟨u, eu, hu⟩ := Inv.run (ops := ops) hw (by simpa only [Scoped, hab, if_false] using h)
      exact ⟨u, by simp only [Conf.run, step, e, eu], hu⟩
  | .destroy i :: ops, w, hw, h => by
    obtain ⟨h1, h2⟩ := h
    rw [List.getElem?_map] at h1
    obtain ⟨o, ho, hs⟩ := Option.map_eq_some_iff.1 h1
    obtain ⟨c, rfl⟩ := Option.isSome_iff_exists.1 hs
    obtain ⟨v, e, hv, hob⟩ := hw.destroy ho
    obtain ⟨u, eu, hu⟩ := Inv.run (ops := ops) hv (by rw [hob, List.map_set]; exact h2)
    exact ⟨u, by simp only [Conf.run, step, e, eu], hu⟩

private theorem inv_start (cuda : Bool) : Inv cuda World.start := ⟨rfl, rfl, .nil⟩

/-- A program which constructs objects of class `Config`, some of them without success, and destroys each at most once, does not fail an assertion of StarPU. Starts and ends of StarPU and cuBLAS nest properly, and
StarPU is started as often as objects are alive: it runs exactly while there is one. -/
theorem _root_.NNTile.C86_scoped_partial (cuda : Bool) (ops : List Op) (h : Scoped [] ops) :
    ∃ w, run cuda World.start ops = .ok w ∧ Balanced w.log w.count w.cublas ∧ w.count = w.alive ∧ w.cublas = w.aliveCublas cuda := by
  obtain ⟨w, e, hw⟩ := Inv.run (ops := ops) (inv_start cuda) (by exact h)
  exact ⟨w, e, hw.bal, hw.count, hw.cublas⟩

private theorem Balanced.counts {l : List Call} {n m : Nat} (h : Balanced l n m) : l.count .init = l.count .shutdown + n ∧ l.count .cublasInit = l.count .cublasShutdown + m := by
  induction h with
  | nil => simp
  | init _ ih => simp only [List.count_append, List.count_singleton]; simp; omega
  | cublasInit _ _ ih => simp only [List.count_append, List.count_singleton]; simp; omega
  | cublasShutdown _ _ ih => simp only [List.count_append, List.count_singleton]; simp; omega
  | shutdown _ ih => simp only [List.count_append, List.count_singleton]; simp; omega

/-- When all objects of such a program are destroyed, there were as many calls of `starpu_shutdown` as successful calls of `starpu_init`, and the same for cuBLAS. -/
theorem _root_.NNTile.C86_ended_partial (cuda : Bool) (ops : List Op) (h : Scoped [] ops) (w : World) (hw : run cuda World.start ops = .ok w) (hd : ∀ o ∈ w.objects, o = none) :
    w.log.count .init = w.log.count .shutdown ∧ w.log.count .cublasInit = w.log.count .cublasShutdown := by
  obtain ⟨v, e, hb, h1, h2⟩ := C86_scoped_partial cuda ops h
  rw [hw] at e
  cases e
  have a1 : w.alive = 0 := by
    unfold World.alive
    rw [List.countP_eq_zero]
    intro o ho; rw [hd o ho]; simp
  have a2 : w.aliveCublas cuda = 0 := by
    unfold World.aliveCublas
    rw [List.countP_eq_zero]
    intro o ho; rw [hd o ho]; simp
  rw [h1, h2, a1, a2] at hb
  exact hb.counts

/-- A constructor which throws (StarPU cannot be configured or initialized) has started nothing. -/
theorem _root_.NNTile.C86_throw (cuda : Bool) (w : World) (c : Int) (a b : Bool) (h : a = false ∨ b = false) : step cuda w (.construct c a b) = .raised w := by
  cases a <;> cases b <;> simp_all [step, World.construct]

/-- False: "the method `shutdown` may be called". With one object, the method followed by the destructor, which every object has, ends StarPU twice: an assertion of StarPU fails. -/
theorem _root_.NNTile.C86_shutdown_refuted (cuda : Bool) (c : Int) : run cuda World.start [.construct c true true, .shutdown 0, .destroy 0] = .abort := by
  cases cuda <;> by_cases h : c = 0 <;>
    simp [run, step, World.construct, World.shutdown, World.destroy, World.starpuInit, World.cublasInit, World.cublasShutdown, World.starpuShutdown, World.start, h]

/-- False: "an object may be copied": copy and original end StarPU which was started once. -/
theorem _root_.NNTile.C86_copy_refuted (cuda : Bool) (c : Int) : run cuda World.start [.construct c true true, .copy 0, .destroy 1, .destroy 0] = .abort := by
  cases cuda <;> by_cases h : c = 0 <;>
    simp [run, step, World.construct, World.copy, World.shutdown, World.destroy, World.starpuInit, World.cublasInit, World.cublasShutdown, World.starpuShutdown, World.start, h]

/-- With another object alive, the method called on one object does not fail at once: it ends what the other object still needs. -/
theorem _root_.NNTile.C86_shutdown_other_refuted (cuda : Bool) (c d : Int) (hc : c ≠ 0) (hd : d ≠ 0) :
    ∃ w, run cuda World.start [.construct c true true, .construct d true true, .shutdown 0, .destroy 0] = .ok w ∧ w.objects[1]? = some (some d) ∧ w.count = 0 := by
  cases cuda <;>
    simp [run, step, World.construct, World.shutdown, World.destroy, World.starpuInit, World.cublasInit, World.cublasShutdown, World.starpuShutdown, World.start, hc, hd]

/-- Three objects, one of them not constructed, in overlapping lifetimes. -/
example : Scoped [] [.construct (-1) true true, .construct 1 true false, .construct 0 true true, .destroy 0, .destroy 1] := by
  simp [Scoped]

example : ∃ w, run true World.start [.construct (-1) true true, .construct 1 true false, .construct 0 true true, .destroy 0, .destroy 1] = .ok w ∧ (∀ o ∈ w.objects, o = none) ∧
    w.log = [.init, .cublasInit, .init, .cublasShutdown, .shutdown, .shutdown] := by
  simp [run, step, World.construct, World.shutdown, World.destroy, World.starpuInit, World.cublasInit, World.cublasShutdown, World.starpuShutdown, World.start]

end NNTile.Conf
