import Verif.Model.Generate
import Verif.Lib.Core
import Mathlib.Tactic
/-!
# C90: the batches of `gpt2_training.py`
-/
namespace NNTile

/-- The position in the list of tokens of the input at the place `s` of the sequence `b` of the minibatch `j` of the batch `i`: sequences take `n + 1` tokens each. -/
def gptPosition (n batchSize minibatchSize i j b s : Nat) : Nat := (i * batchSize + j * minibatchSize + b) * (n + 1) + s

theorem gptTruncated_le (total n batchSize : Nat) : total / (n + 1) / batchSize * batchSize * (n + 1) ≤ total :=
  le_trans (Nat.mul_le_mul_right _ (Nat.div_mul_le_self _ _)) (Nat.div_mul_le_self _ _)

/-- **Sizes which do not fit are rejected.** -/
theorem C90_rejects (tokens : List Nat) (n batchSize minibatchSize : Nat) (h : batchSize = 0 ∨ minibatchSize = 0 ∨ ¬ minibatchSize ∣ batchSize) :
    gptBatches tokens n batchSize minibatchSize = .error (.throw "AssertionError") := by
  unfold gptBatches
  by_cases h1 : batchSize = 0
  · rw [throwIf, if_pos h1]
    rfl
  rw [throwIf, if_neg h1, M.bind_ok]
  by_cases h2 : minibatchSize = 0
  · rw [throwIf, if_pos h2]
    rfl
  rw [throwIf, if_neg h2, M.bind_ok]
  have h3 : batchSize % minibatchSize ≠ 0 := fun e => by
    rcases h with h | h | h
    · exact h1 h
    · exact h2 h
    · exact h (Nat.dvd_of_mod_eq_zero e)
  rw [throwIf, if_pos h3]
  rfl

/-- **Inputs and labels.** For sizes which fit there are batches for all complete groups of sequences, each has all its minibatches, and the element `[s, b]` of the input and of the labels are neighbours in the list of tokens: the
model is trained to predict the token which follows. -/
theorem C90_batches (tokens : List Nat) (n : Nat) {batchSize minibatchSize : Nat} (hb : 0 < batchSize) (hm : 0 < minibatchSize) (hd : minibatchSize ∣ batchSize) :
    ∃ bs, gptBatches tokens n batchSize minibatchSize = .ok bs ∧ bs.length = tokens.length / ((n + 1) * batchSize) ∧
      ∀ i (hi : i < bs.length), bs[i].length * minibatchSize = batchSize ∧ ∀ j (hj : j < bs[i].length), ∀ b s, b < minibatchSize → s < n →
        ∃ hp : gptPosition n batchSize minibatchSize i j b s + 1 < tokens.length,
          bs[i][j].x s b = tokens[gptPosition n batchSize minibatchSize i j b s] ∧ bs[i][j].y s b = tokens[gptPosition n batchSize minibatchSize i j b s + 1] := by
  obtain ⟨k, rfl⟩ := hd
  have hk : 0 < k := Nat.pos_of_mul_pos_left hb
  have e : minibatchSize * k / minibatchSize = k := Nat.mul_div_cancel_left _ hm
  have hT := gptTruncated_le tokens.length n (minibatchSize * k)
  have hl : (tokens.take (tokens.length / (n + 1) / (minibatchSize * k) * (minibatchSize * k) * (n + 1))).length = tokens.length / (n + 1) / (minibatchSize * k) * (minibatchSize * k) * (n + 1) := by
    rw [List.length_take]
    omega
  have run : gptBatches tokens n (minibatchSize * k) minibatchSize = .ok ((List.range (tokens.length / (n + 1) / (minibatchSize * k))).map fun i => (List.range k).map fun j =>
      ⟨fun s b => (tokens.take (tokens.length / (n + 1) / (minibatchSize * k) * (minibatchSize * k) * (n + 1))).getD (((i * k + j) * minibatchSize + b) * (n + 1) + s) 0,
        fun s b => (tokens.take (tokens.length / (n + 1) / (minibatchSize * k) * (minibatchSize * k) * (n + 1))).getD (((i * k + j) * minibatchSize + b) * (n + 1) + (s + 1)) 0⟩) := by
    unfold gptBatches
    rw [throwIf, if_neg (by omega), M.bind_ok, throwIf, if_neg (by omega), M.bind_ok, throwIf, if_neg (by simp), M.bind_ok]
    simp only [hl, e]
    rw [throwIf, if_neg (by rw [not_not]; ring), M.bind_ok]
  refine ⟨_, run, by simp [Nat.div_div_eq_div_mul], fun i hi => ?_⟩
  simp only [List.length_map, List.length_range] at hi
  simp only [List.getElem_map, List.getElem_range, List.length_map, List.length_range]
  refine ⟨Nat.mul_comm _ _, fun j hj b s hb hs => ?_⟩
  have hpos : ((i * k + j) * minibatchSize + b) * (n + 1) + s = gptPosition n (minibatchSize * k) minibatchSize i j b s := by
    unfold gptPosition
    ring
  have hlt : gptPosition n (minibatchSize * k) minibatchSize i j b s + 1 < tokens.length / (n + 1) / (minibatchSize * k) * (minibatchSize * k) * (n + 1) := by
    have h1 : j * minibatchSize + b + 1 ≤ minibatchSize * k := by nlinarith [Nat.mul_le_mul_right minibatchSize (show j + 1 ≤ k from hj)]
    have h2 : i * (minibatchSize * k) + j * minibatchSize + b + 1 ≤ tokens.length / (n + 1) / (minibatchSize * k) * (minibatchSize * k) := by
      nlinarith [Nat.mul_le_mul_right (minibatchSize * k) (show i + 1 ≤ _ from hi)]
    have h3 := Nat.mul_le_mul_right (n + 1) h2
    unfold gptPosition
    nlinarith
  refine ⟨by omega, ?_, ?_⟩
  · rw [hpos]
    simp only [List.getD_eq_getElem?_getD, List.getElem?_take]
    rw [if_pos (by omega), List.getElem?_eq_getElem (by omega)]
    rfl
  · rw [show ((i * k + j) * minibatchSize + b) * (n + 1) + (s + 1) = gptPosition n (minibatchSize * k) minibatchSize i j b s + 1 by omega]
    simp only [List.getD_eq_getElem?_getD, List.getElem?_take]
    rw [if_pos (by omega), List.getElem?_eq_getElem (by omega)]
    rfl

/-- **No token is an input twice**: different places in the batches are different positions in the list of tokens. -/
theorem C90_once {n k minibatchSize i j b s i' j' b' s' : Nat} (hj : j < k) (hj' : j' < k) (hb : b < minibatchSize) (hb' : b' < minibatchSize) (hs : s < n) (hs' : s' < n)
    (h : gptPosition n (k * minibatchSize) minibatchSize i j b s = gptPosition n (k * minibatchSize) minibatchSize i' j' b' s') : i = i' ∧ j = j' ∧ b = b' ∧ s = s' := by
  have split : ∀ {m a a' r r' : Nat}, r < m → r' < m → a * m + r = a' * m + r' → a = a' ∧ r = r' := fun {m a a' r r'} hr hr' e => by
    have hm : 0 < m := by omega
    have h1 := congrArg (· / m) e
    have h2 := congrArg (· % m) e
    simp only [Nat.mul_add_mod_self_right, Nat.mod_eq_of_lt hr, Nat.mod_eq_of_lt hr'] at h2
    simp only [Nat.mul_comm _ m, Nat.mul_add_div hm, Nat.div_eq_of_lt hr, Nat.div_eq_of_lt hr', Nat.add_zero] at h1
    exact ⟨h1, h2⟩
  unfold gptPosition at h
  obtain ⟨h1, h2⟩ := split (by omega) (by omega) h
  have e : ∀ i j b : Nat, i * (k * minibatchSize) + j * minibatchSize + b = (i * k + j) * minibatchSize + b := fun i j b => by ring
  rw [e, e] at h1
  obtain ⟨h3, h4⟩ := split hb hb' h1
  obtain ⟨h5, h6⟩ := split hj hj' h3
  exact ⟨h5, h6, h4, h2⟩

/-- **Few tokens are left out**: less than one batch needs at the end. -/
theorem C90_left (tokens : List Nat) (n : Nat) {batchSize minibatchSize : Nat} (hb : 0 < batchSize) (hm : 0 < minibatchSize) (hd : minibatchSize ∣ batchSize) {bs : List (List GptMinibatch)}
    (h : gptBatches tokens n batchSize minibatchSize = .ok bs) :
    bs.length * batchSize * (n + 1) ≤ tokens.length ∧ tokens.length < (bs.length + 1) * batchSize * (n + 1) := by
  obtain ⟨bs', e, hl, -⟩ := C90_batches tokens n hb hm hd
  rw [Except.ok.inj (h.symm.trans e), hl]
  have h1 := Nat.div_add_mod tokens.length ((n + 1) * batchSize)
  have h2 := Nat.mod_lt tokens.length (show 0 < (n + 1) * batchSize by positivity)
  have h3 : tokens.length / ((n + 1) * batchSize) * batchSize * (n + 1) = (n + 1) * batchSize * (tokens.length / ((n + 1) * batchSize)) := by ring
  have h4 : (tokens.length / ((n + 1) * batchSize) + 1) * batchSize * (n + 1) = (n + 1) * batchSize * (tokens.length / ((n + 1) * batchSize)) + (n + 1) * batchSize := by ring
  omega

/-- Two batches of two minibatches of one sequence of two positions; the last two tokens are left out. -/
example : ((gptBatches (List.range 14) 2 2 1).toOption.map fun bs => bs.map fun b => b.map fun m => [(m.x 0 0, m.y 0 0), (m.x 1 0, m.y 1 0)]) =
    some [[[(0, 1), (1, 2)], [(3, 4), (4, 5)]], [[(6, 7), (7, 8)], [(9, 10), (10, 11)]]] := by decide

end NNTile
