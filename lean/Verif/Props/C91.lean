import Verif.Model.Generate
import Verif.Lib.Core
import Mathlib.Tactic
/-!
# C91: the loaders of images
-/
namespace NNTile

theorem imageBatches_run {batchSize minibatchSize : Nat} (total : Nat) (hb : 0 < batchSize) (hm : 0 < minibatchSize) :
    imageBatches total batchSize minibatchSize = .ok ((List.range (total / batchSize)).map fun i => (List.range (batchSize / minibatchSize)).map fun j =>
      (List.range minibatchSize).map fun k => i * batchSize + j * minibatchSize + k) := by
  unfold imageBatches
  rw [throwIf, if_neg (by omega), M.bind_ok, throwIf, if_neg (by omega), M.bind_ok]

theorem range_blocks (a : Nat) (m : Nat) : ∀ n : Nat, ((List.range n).map fun j => (List.range m).map fun k => a + j * m + k).flatten = (List.range (n * m)).map fun r => a + r := by
  intro n
  induction n with
  | zero => simp
  | succ n ih =>
    rw [List.range_succ, List.map_append, List.flatten_append, ih, Nat.succ_mul, List.range_add, List.map_append, List.map_map]
    simp [Function.comp_def, Nat.add_assoc]

/-- **Sizes zero are rejected.** -/
theorem C91_rejects_partial (total batchSize minibatchSize : Nat) (h : batchSize = 0 ∨ minibatchSize = 0) : imageBatches total batchSize minibatchSize = .error (.throw "ZeroDivisionError") := by
  unfold imageBatches
  by_cases h1 : batchSize = 0
  · rw [throwIf, if_pos h1]
    rfl
  · rw [throwIf, if_neg h1, M.bind_ok, throwIf, if_pos (by tauto)]
    rfl

/-- **Each image once, in order.** If minibatches fill the batches, the images in all minibatches are, one after the other, the images of the data set without the incomplete batch at its end. -/
theorem C91_once_partial {batchSize minibatchSize : Nat} (total : Nat) (hb : 0 < batchSize) (hm : 0 < minibatchSize) (hd : minibatchSize ∣ batchSize) :
    ∃ bs, imageBatches total batchSize minibatchSize = .ok bs ∧ bs.length = total / batchSize ∧ (∀ b ∈ bs, b.length * minibatchSize = batchSize ∧ ∀ m ∈ b, m.length = minibatchSize) ∧
      (bs.map List.flatten).flatten = List.range (total / batchSize * batchSize) ∧ total - total / batchSize * batchSize < batchSize := by
  refine ⟨_, imageBatches_run total hb hm, by simp, ?_, ?_, ?_⟩
  · intro b hb'
    obtain ⟨i, -, rfl⟩ := List.mem_map.1 hb'
    refine ⟨by simpa using Nat.div_mul_cancel hd, fun m hm' => ?_⟩
    obtain ⟨j, -, rfl⟩ := List.mem_map.1 hm'
    simp
  · rw [List.map_map]
    have h : (List.flatten ∘ fun i => (List.range (batchSize / minibatchSize)).map fun j => (List.range minibatchSize).map fun k => i * batchSize + j * minibatchSize + k) =
        fun i => (List.range batchSize).map fun r => 0 + i * batchSize + r := by
      funext i
      rw [Function.comp_apply, range_blocks, Nat.div_mul_cancel hd, Nat.zero_add]
    rw [h, range_blocks]
    simp
  · have h1 := Nat.div_add_mod total batchSize
    have h2 := Nat.mod_lt total hb
    rw [Nat.mul_comm] at h1
    omega

/-- All sizes: no image is outside the data set, and none is used twice. -/
theorem C91_bounds_partial {batchSize minibatchSize : Nat} (total : Nat) (hb : 0 < batchSize) (hm : 0 < minibatchSize) :
    ∃ bs, imageBatches total batchSize minibatchSize = .ok bs ∧ (∀ b ∈ bs, ∀ m ∈ b, ∀ r ∈ m, r < total) ∧ (bs.map List.flatten).flatten.Nodup := by
  refine ⟨_, imageBatches_run total hb hm, ?_, ?_⟩
  · intro b hb' m hm' r hr
    obtain ⟨i, hi, rfl⟩ := List.mem_map.1 hb'
    obtain ⟨j, hj, rfl⟩ := List.mem_map.1 hm'
    obtain ⟨k, hk, rfl⟩ := List.mem_map.1 hr
    rw [List.mem_range] at hi hj hk
    have h1 := Nat.div_mul_le_self total batchSize
    have h2 := Nat.div_mul_le_self batchSize minibatchSize
    have h3 := Nat.mul_le_mul_right batchSize (Nat.succ_le_of_lt hi)
    have h4 := Nat.mul_le_mul_right minibatchSize (Nat.succ_le_of_lt hj)
    rw [Nat.succ_mul] at h3 h4
    omega
  · rw [List.map_map]
    have h : (List.flatten ∘ fun i => (List.range (batchSize / minibatchSize)).map fun j => (List.range minibatchSize).map fun k => i * batchSize + j * minibatchSize + k) =
        fun i => (List.range (batchSize / minibatchSize * minibatchSize)).map fun r => i * batchSize + r := by
      funext i
      rw [Function.comp_apply, range_blocks]
    rw [h, ← List.flatMap_def, List.nodup_flatMap]
    refine ⟨fun i _ => (List.nodup_range).map fun a b e => Nat.add_left_cancel e, ?_⟩
    refine List.Pairwise.imp_of_mem (R := (· < ·)) (fun {a b} _ _ hab => ?_) List.pairwise_lt_range
    show List.Disjoint _ _
    intro r ha hb'
    obtain ⟨x, hx, rfl⟩ := List.mem_map.1 ha
    obtain ⟨y, hy, e⟩ := List.mem_map.1 hb'
    rw [List.mem_range] at hx hy
    have h2 := Nat.div_mul_le_self batchSize minibatchSize
    have h3 := Nat.mul_le_mul_right batchSize (Nat.succ_le_of_lt hab)
    rw [Nat.succ_mul] at h3
    omega

/-- **Refuted: batches have `batch_size` images.** If minibatches do not fill the batches, the last images of each batch are left out without a word: no minibatch has them. (The program `mlp_mixer_nntile.py` rejects such sizes before it calls the loaders, line 73; the loaders do not.) -/
theorem C91_left_refuted {batchSize minibatchSize : Nat} (total : Nat) (hb : 0 < batchSize) (hm : 0 < minibatchSize) (hd : ¬ minibatchSize ∣ batchSize) {i : Nat} (hi : i < total / batchSize) :
    i * batchSize + (batchSize - 1) < total ∧ ∃ bs, imageBatches total batchSize minibatchSize = .ok bs ∧ ∀ b ∈ bs, ∀ m ∈ b, i * batchSize + (batchSize - 1) ∉ m := by
  have h1 := Nat.div_mul_le_self total batchSize
  have h3 := Nat.mul_le_mul_right batchSize (Nat.succ_le_of_lt hi)
  rw [Nat.succ_mul] at h3
  refine ⟨by omega, _, imageBatches_run total hb hm, ?_⟩
  intro b hb' m hm' hr
  obtain ⟨i', -, rfl⟩ := List.mem_map.1 hb'
  obtain ⟨j, hj, rfl⟩ := List.mem_map.1 hm'
  obtain ⟨k, hk, e⟩ := List.mem_map.1 hr
  rw [List.mem_range] at hj hk
  have h2 : batchSize / minibatchSize * minibatchSize < batchSize :=
    lt_of_le_of_ne (Nat.div_mul_le_self _ _) fun e => hd (Dvd.intro_left _ e)
  have h4 := Nat.mul_le_mul_right minibatchSize (Nat.succ_le_of_lt hj)
  rw [Nat.succ_mul] at h4
  rcases Nat.lt_trichotomy i i' with h | h | h
  · have h5 := Nat.mul_le_mul_right batchSize (Nat.succ_le_of_lt h)
    rw [Nat.succ_mul] at h5
    omega
  · subst h
    omega
  · have h5 := Nat.mul_le_mul_right batchSize (Nat.succ_le_of_lt h)
    rw [Nat.succ_mul] at h5
    omega

/-- Eleven images in batches of four, minibatches of two; and batches of three with minibatches of two, where each third image is lost. -/
example : imageBatches 11 4 2 = .ok [[[0, 1], [2, 3]], [[4, 5], [6, 7]]] ∧ imageBatches 7 3 2 = .ok [[[0, 1]], [[3, 4]]] := by decide

end NNTile
