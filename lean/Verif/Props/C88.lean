import Verif.Model.DeepReluMp
import Mathlib.Tactic
/-!
# C88: the model `DeepReLU_mp`
-/
namespace NNTile
variable {β : Type}

/-- **Wrong arguments are rejected.** -/
theorem C88_rejects_partial (names : List String) (side : String) (ndim nlayers : Int) (rest : M β) (h : (side ≠ "L" ∧ side ≠ "R") ∨ nlayers < 2 ∨ ndim ≤ 0) :
    ∃ e, DeepReluMp.new names side ndim nlayers rest = .error (.throw e) ∧
      e ∈ ["side must be either 'L' or 'R'", "nlayers must be at least 2", "ndim must be positive integer"] := by
  unfold DeepReluMp.new
  by_cases h1 : side ≠ "L" ∧ side ≠ "R"
  · exact ⟨_, by rw [throwIf, if_pos h1]; rfl, by simp⟩
  rw [throwIf, if_neg h1]
  by_cases h2 : nlayers < 2
  · exact ⟨_, by rw [throwIf, if_pos h2]; rfl, by simp⟩
  rw [throwIf, if_neg h2]
  by_cases h3 : ndim ≤ 0
  · exact ⟨_, by rw [throwIf, if_pos h3]; rfl, by simp⟩
  · rcases h with h | h | h
    · exact absurd h h1
    · exact absurd h h2
    · exact absurd h h3

/-- **Refuted: right arguments are accepted.** With them, whatever the rest of the constructor does, it raises `NameError`: there is no object of the class. -/
theorem C88_new_refuted (side : String) (ndim nlayers : Int) (rest : M β) (h1 : side = "L" ∨ side = "R") (h2 : 2 ≤ nlayers) (h3 : 0 < ndim) :
    DeepReluMp.new deepReluMpNames side ndim nlayers rest = .error (.throw "NameError") := by
  unfold DeepReluMp.new
  rw [throwIf, if_neg (by rcases h1 with rfl | rfl <;> decide), throwIf, if_neg (by omega), throwIf, if_neg (by omega)]
  simp [lookupName, deepReluMpNames]

/-- The missing name is the only obstacle: in a module which defines it the constructor goes on. -/
theorem C88_accepts_partial (names : List String) (hn : "fp32_fast_tf32" ∈ names) (side : String) (ndim nlayers : Int) (rest : M β) (h1 : side = "L" ∨ side = "R") (h2 : 2 ≤ nlayers) (h3 : 0 < ndim) :
    DeepReluMp.new names side ndim nlayers rest = rest := by
  unfold DeepReluMp.new
  rw [throwIf, if_neg (by rcases h1 with rfl | rfl <;> decide), throwIf, if_neg (by omega), throwIf, if_neg (by omega)]
  simp [lookupName, hn, M.bind_ok]

/-- No arguments give an object. -/
theorem C88_never_refuted (side : String) (ndim nlayers : Int) (rest : M β) : ∃ e, DeepReluMp.new deepReluMpNames side ndim nlayers rest = .error (.throw e) := by
  by_cases h : (side ≠ "L" ∧ side ≠ "R") ∨ nlayers < 2 ∨ ndim ≤ 0
  · obtain ⟨e, h, -⟩ := C88_rejects_partial deepReluMpNames side ndim nlayers rest h
    exact ⟨e, h⟩
  · simp only [not_or, not_and_or, ne_eq, not_not, not_lt, not_le] at h
    exact ⟨_, C88_new_refuted side ndim nlayers rest h.1 h.2.1 h.2.2⟩

/-- **Refuted: `from_torch` gives a model.** For all PyTorch models and other arguments it raises an exception or returns `None`. -/
theorem C88_from_torch_refuted (params : List (Nat × Nat)) (batch nClasses : Nat) (nonlinearity : String) (tag : Nat) (build : M β) (m : β) :
    DeepReluMp.fromTorch deepReluMpNames params batch nClasses nonlinearity tag build ≠ .ok (some m) := by
  intro h
  unfold DeepReluMp.fromTorch at h
  obtain ⟨_, -, h⟩ := M.bind_eq_ok.1 h
  obtain ⟨_, -, h⟩ := M.bind_eq_ok.1 h
  obtain ⟨_, -, h⟩ := M.bind_eq_ok.1 h
  split at h
  · obtain ⟨_, h, -⟩ := M.bind_eq_ok.1 h
    simp [lookupName, deepReluMpNames] at h
  · cases h

/-- A multilayer perceptron with three layers of matching sizes: the exception for `relu`, and `None` for every other function. -/
theorem C88_from_torch_mlp_refuted (batch n h c : Nat) (hb : 0 < batch) (hn : 0 < n) (nonlinearity : String) (tag : Nat) (build : M β) :
    DeepReluMp.fromTorch deepReluMpNames [(h, n), (h, h), (c, h)] batch c nonlinearity tag build = if nonlinearity = "relu" then .error (.throw "NameError") else .ok none := by
  have e : newTensorD tag [batch, n] [batch, n] 1 = .ok ⟨tag, [batch, n], [batch, n]⟩ := by
    have hw : (⟨tag, [batch, n], [batch, n]⟩ : Tensor).WF := by simp [Tensor.WF, hb, hn]
    have hg : (⟨tag, [batch, n], [batch, n]⟩ : Tensor).ntiles = 1 := by
      simp [Tensor.ntiles, Tensor.grid, Nat.div_self, hb, hn]
    unfold newTensorD newTensor
    rw [throwIf, if_neg (by simpa using hw)]
    simp [throwIf, hg, M.bind_ok]
  simp [DeepReluMp.fromTorch, DeepReluMp.checkParams, throwIf, M.bind_ok, e, lookupName, deepReluMpNames]

end NNTile
