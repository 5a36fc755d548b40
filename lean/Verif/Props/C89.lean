import Verif.Model.Generate
import Verif.Spec.Generate
import Verif.Props.C48
import Mathlib.Tactic
/-!
# C89: continuing a text with `gpt2_custom_generate.py`
-/
namespace NNTile

theorem npArgmax_spec {α : Type} [LinearOrder α] (f : Nat → α) (n : Nat) : npArgmax f n ≤ n ∧ (∀ u, u ≤ n → f u ≤ f (npArgmax f n)) ∧ ∀ u, u < npArgmax f n → f u < f (npArgmax f n) := by
  induction n with
  | zero => exact ⟨le_refl _, fun u hu => by rw [Nat.le_zero.1 hu, npArgmax], fun u hu => absurd hu (Nat.not_lt_zero _)⟩
  | succ n ih =>
    obtain ⟨h1, h2, h3⟩ := ih
    rw [npArgmax]
    split
    · rename_i h
      refine ⟨le_refl _, fun u hu => ?_, fun u hu => lt_of_le_of_lt (h2 u (by omega)) h⟩
      rcases Nat.lt_or_ge u (n + 1) with hu' | hu'
      · exact le_of_lt (lt_of_le_of_lt (h2 u (by omega)) h)
      · rw [show u = n + 1 by omega]
    · rename_i h
      refine ⟨by omega, fun u hu => ?_, h3⟩
      rcases Nat.lt_or_ge u (n + 1) with hu' | hu'
      · exact h2 u (by omega)
      · rw [show u = n + 1 by omega]
        exact not_lt.1 h

theorem pyAt_ok {n i : Nat} (h : i < n) : pyAt n (i : Int) = .ok i := by
  unfold pyAt
  rw [if_pos (by omega), Int.toNat_natCast]

theorem pyAt_high {n : Nat} {i : Int} (h : (n : Int) ≤ i) : pyAt n i = .error (.throw "IndexError") := by
  unfold pyAt
  rw [if_neg (by omega), if_neg (by omega)]

theorem getD_set {x : List Nat} {t v r : Nat} (h : t < x.length) : (x.set t v).getD r 0 = if r = t then v else x.getD r 0 := by
  simp only [List.getD_eq_getElem?_getD, List.getElem?_set]
  by_cases e : t = r
  · subst e
    simp [h]
  · rw [if_neg e, if_neg (Ne.symm e)]

theorem getD_lt {x : List Nat} {r : Nat} (h : r < x.length) : x.getD r 0 = x[r] := by simp [List.getD_eq_getElem?_getD, h]

theorem genLoop_greedy {α : Type} [LinearOrder α] {nPos vocab : Nat} (hv : 0 < vocab) {out : List Nat → Nat → Nat → α} (hc : Causal out) {start : Nat} (hs : 0 < start) (n : Nat) :
    ∀ (i : Nat) (x : List Nat), x.length = nPos → start + i + n ≤ nPos → ∃ x', genLoop nPos vocab out start n i x = .ok x' ∧ x'.length = nPos ∧
      (∀ r, r < start + i ∨ start + i + n ≤ r → x'.getD r 0 = x.getD r 0) ∧ Greedy (min 50257 vocab) out x' (start + i) (start + i + n) := by
  induction n with
  | zero => exact fun i x hx _ => ⟨x, rfl, hx, fun _ _ => rfl, fun p h1 h2 => by omega⟩
  | succ n ih =>
    intro i x hx hn
    have e1 : pyAt nPos ((start : Int) + i - 1) = .ok (start + i - 1) := by
      rw [show ((start : Int) + i - 1) = ((start + i - 1 : Nat) : Int) by omega]
      exact pyAt_ok (by omega)
    have e2 : pyAt nPos ((start : Int) + i) = .ok (start + i) := by
      rw [show ((start : Int) + i) = ((start + i : Nat) : Int) by omega]
      exact pyAt_ok (by omega)
    obtain ⟨x', e, h1, h2, h3⟩ := ih (i + 1) (x.set (start + i) (npArgmax (fun v => out x v (start + i - 1)) (min 50257 vocab - 1))) (by simpa using hx) (by omega)
    refine ⟨x', ?_, h1, fun r hr => ?_, fun p hp1 hp2 => ?_⟩
    · rw [genLoop, e1, M.bind_ok, e2, M.bind_ok]
      exact e
    · rw [h2 r (by omega), getD_set (by omega), if_neg (by omega)]
    · rcases Nat.lt_or_ge (start + i) p with h | h
      · exact h3 p (by omega) (by omega)
      · have hp : p = start + i := by omega
        subst hp
        have hx' : x'.getD (start + i) 0 = npArgmax (fun v => out x v (start + i - 1)) (min 50257 vocab - 1) := by
          rw [h2 _ (by omega), getD_set (by omega), if_pos rfl]
        obtain ⟨a1, a2, a3⟩ := npArgmax_spec (fun v => out x v (start + i - 1)) (min 50257 vocab - 1)
        rw [← hx'] at a1 a2 a3
        refine ⟨by omega, fun y hy => ?_⟩
        have hxy : ∀ v, out y v (start + i - 1) = out x v (start + i - 1) := fun v => hc _ _ _ _ fun r hr => by
          rw [hy r (by omega), h2 r (by omega), getD_set (by omega), if_neg (by omega)]
        exact ⟨fun u hu => by rw [hxy, hxy]; exact a2 u (by omega), fun u hu => by rw [hxy, hxy]; exact a3 u hu⟩

theorem genPrompt_one {nPos eos : Nat} {l : List Nat} (h : l ≠ []) (hl : l.length ≤ nPos + 1) :
    genPrompt nPos eos [l] = .ok (l.dropLast ++ List.replicate (nPos - (l.length - 1)) eos, l.length - 1) := by
  simp [genPrompt, throwIf, h, M.bind_ok, show ¬ nPos < l.length - 1 by omega]

/-- **The text is continued.** The file has one line; `l` are its tokens before the last one (which is the end of the line). There is at least one such token, and there are enough positions. With a causal model the program puts
the prompt and then, token by token, the most likely continuation into the buffer; what is in the buffer behind the tokens does not matter. -/
theorem C89_generate_partial {α : Type} [LinearOrder α] {nPos vocab eos : Nat} (hv : 0 < vocab) {out : List Nat → Nat → Nat → α} (hc : Causal out) {l : List Nat} (hl : l ≠ []) (last ntokens : Nat)
    (hn : l.length + ntokens ≤ nPos) :
    ∃ x, gptGenerate nPos vocab eos out [l ++ [last]] ntokens = .ok (x, l.length) ∧ x.length = nPos ∧ x.take l.length = l ∧ x.drop (l.length + ntokens) = List.replicate (nPos - (l.length + ntokens)) eos ∧
      Greedy (min 50257 vocab) out x l.length (l.length + ntokens) := by
  have hp := genPrompt_one (nPos := nPos) (eos := eos) (l := l ++ [last]) (by simp) (by simp; omega)
  simp only [List.dropLast_concat, List.length_append, List.length_cons, List.length_nil, Nat.zero_add, Nat.add_sub_cancel] at hp
  have hlen : (l ++ List.replicate (nPos - l.length) eos).length = nPos := by simp; omega
  obtain ⟨x, e, h1, h2, h3⟩ := genLoop_greedy hv hc (List.length_pos_of_ne_nil hl) ntokens 0 _ hlen (by omega)
  simp only [Nat.add_zero] at h2 h3
  refine ⟨x, ?_, h1, ?_, ?_, h3⟩
  · rw [gptGenerate, hp, M.bind_ok]
    show (genLoop nPos vocab out l.length ntokens 0 _ >>= _) = _
    rw [e, M.bind_ok]
  · refine List.ext_getElem (by simp; omega) fun r hr1 hr2 => ?_
    have := h2 r (by omega)
    rw [getD_lt (by omega), getD_lt (by omega), List.getElem_append_left hr2] at this
    rw [List.getElem_take, this]
  · refine List.ext_getElem (by simp; omega) fun r hr1 hr2 => ?_
    simp only [List.length_drop] at hr1
    have := h2 (l.length + ntokens + r) (by omega)
    rw [getD_lt (by omega), getD_lt (by omega), List.getElem_append_right (by omega)] at this
    rw [List.getElem_drop, this]
    simp

/-- The logits of a GPT2 are causal (C48). -/
theorem gptLogits_causal (z : GptDims) (p : GptP (List Nat → ℝ)) : Causal (gptLogits z p) :=
  fun _ _ v s h => C48_causal z p (j := s) (n := 0) (fun r hr => by simpa using h r hr) (fun _ _ => rfl) v

/-- **With a GPT2** the text is continued by the most likely tokens. -/
theorem C89_gpt2_partial (z : GptDims) (p : GptP (List Nat → ℝ)) {nPos vocab eos : Nat} (hv : 0 < vocab) {l : List Nat} (hl : l ≠ []) (last ntokens : Nat) (hn : l.length + ntokens ≤ nPos) :
    ∃ x, gptGenerate nPos vocab eos (gptLogits z p) [l ++ [last]] ntokens = .ok (x, l.length) ∧ x.length = nPos ∧ x.take l.length = l ∧
      Greedy (min 50257 vocab) (gptLogits z p) x l.length (l.length + ntokens) := by
  obtain ⟨x, e, h1, h2, -, h3⟩ := C89_generate_partial (eos := eos) hv (gptLogits_causal z p) hl last ntokens hn
  exact ⟨x, e, h1, h2, h3⟩

/-- **More tokens than positions** give an exception, not a wrong text. -/
theorem C89_positions_partial {α : Type} [LinearOrder α] {nPos vocab : Nat} {out : List Nat → Nat → Nat → α} {start : Nat} (hs : 0 < start) (n : Nat) :
    ∀ (i : Nat) (x : List Nat), nPos < start + i + n → start + i ≤ nPos → genLoop nPos vocab out start n i x = .error (.throw "IndexError") := by
  induction n with
  | zero => exact fun i x h1 h2 => by omega
  | succ n ih =>
    intro i x h1 h2
    have e1 : pyAt nPos ((start : Int) + i - 1) = .ok (start + i - 1) := by
      rw [show ((start : Int) + i - 1) = ((start + i - 1 : Nat) : Int) by omega]
      exact pyAt_ok (by omega)
    rw [genLoop, e1, M.bind_ok]
    rcases Nat.lt_or_ge (start + i) nPos with h | h
    · rw [show ((start : Int) + i) = ((start + i : Nat) : Int) by omega, pyAt_ok h, M.bind_ok]
      exact ih _ _ (by omega) (by omega)
    · rw [pyAt_high (by omega), M.bind_error]

/-- **Refuted: a text of one token is continued.** The last token of the line is not used, so no token is left; the first token is chosen by the logits at the last position of the buffer, which has nothing but filler
in it. -/
theorem C89_one_token_refuted {α : Type} [LinearOrder α] {nPos vocab eos : Nat} (hp : 0 < nPos) {out : List Nat → Nat → Nat → α} (t : Nat) :
    gptGenerate nPos vocab eos out [[t]] 1 =
      .ok ((List.replicate nPos eos).set 0 (npArgmax (fun v => out (List.replicate nPos eos) v (nPos - 1)) (min 50257 vocab - 1)), 0) := by
  have e1 : pyAt nPos (((0 : Nat) : Int) + ((0 : Nat) : Int) - 1) = .ok (nPos - 1) := by
    unfold pyAt
    rw [if_neg (by omega), if_pos (by omega)]
    congr 1
    omega
  have e2 : pyAt nPos (((0 : Nat) : Int) + ((0 : Nat) : Int)) = .ok 0 := pyAt_ok (i := 0) hp
  rw [gptGenerate, genPrompt_one (by simp) (by simp), M.bind_ok]
  show (genLoop nPos vocab out 0 1 0 _ >>= _) = _
  rw [genLoop, e1, M.bind_ok, e2, M.bind_ok, genLoop, M.bind_ok]
  simp

/-- **Refuted: the continuation depends on the whole text.** Two lines which differ in their last token (a file whose last line does not end with the end of a line) have the same continuation. -/
theorem C89_last_token_refuted {α : Type} [LinearOrder α] {nPos vocab eos : Nat} {out : List Nat → Nat → Nat → α} (l : List Nat) (a b ntokens : Nat) :
    gptGenerate nPos vocab eos out [l ++ [a]] ntokens = gptGenerate nPos vocab eos out [l ++ [b]] ntokens := by
  have h : genPrompt nPos eos [l ++ [a]] = genPrompt nPos eos [l ++ [b]] := by simp [genPrompt]
  rw [gptGenerate, gptGenerate, h]

/-- **Refuted: texts of several lines are continued.** The lines behind the first are not used, or the program raises an exception. -/
theorem C89_lines_refuted {α : Type} [LinearOrder α] {nPos vocab eos : Nat} {out : List Nat → Nat → Nat → α} (l : List Nat) (ls : List (List Nat)) (ntokens : Nat) :
    gptGenerate nPos vocab eos out (l :: ls) ntokens = if ∀ l' ∈ ls, l'.length = l.length then gptGenerate nPos vocab eos out [l] ntokens else .error (.throw "ValueError or IndexError") := by
  have h : genPrompt nPos eos (l :: ls) = if ∀ l' ∈ ls, l'.length = l.length then genPrompt nPos eos [l] else .error (.throw "ValueError or IndexError") := by
    by_cases h : ∀ l' ∈ ls, l'.length = l.length
    · have a1 : throwIf (l :: ls = [] ∨ ∃ l' ∈ l :: ls, l'.length ≠ ((l :: ls).headD []).length) "ValueError or IndexError" = .ok () := if_neg (by simpa using h)
      have a2 : throwIf ([l] = [] ∨ ∃ l' ∈ [l], l'.length ≠ ([l].headD []).length) "ValueError or IndexError" = .ok () := if_neg (by simp)
      rw [if_pos h, genPrompt, genPrompt, a1, a2]
      rfl
    · rw [if_neg h, genPrompt, throwIf, if_pos (by simpa using h)]
      rfl
  rw [gptGenerate, h]
  split
  · rw [gptGenerate]
  · rfl

/-- **Refuted**, in full: one line of at least one token and enough positions give the line and its most likely continuation. A model which always prefers the successor of a token continues 7 by 1. -/
theorem C89_refuted : ¬ ∀ (nPos vocab eos : Nat) (out : List Nat → Nat → Nat → Int) (l : List Nat) (ntokens : Nat), 0 < vocab → Causal out → l ≠ [] → l.length + ntokens ≤ nPos →
    ∃ x start, gptGenerate nPos vocab eos out [l] ntokens = .ok (x, start) ∧ x.take l.length = l ∧ Greedy (min 50257 vocab) out x l.length (l.length + ntokens) := by
  intro h
  obtain ⟨x, start, e, h1, -⟩ := h 6 12 0 (fun x v s => if v = x.getD s 0 + 1 then 1 else 0) [7] 1 (by decide) (fun x x' v s hx => by
    show (if v = x.getD s 0 + 1 then (1 : Int) else 0) = if v = x'.getD s 0 + 1 then 1 else 0
    rw [hx s (le_refl _)]) (by decide) (by decide)
  rw [show gptGenerate 6 12 0 (fun x v s => if v = x.getD s 0 + 1 then (1 : Int) else 0) [[7]] 1 = .ok ([1, 0, 0, 0, 0, 0], 0) by decide] at e
  have := Except.ok.inj e
  rw [← (Prod.mk.inj this).1] at h1
  exact absurd h1 (by decide)

/-- Three tokens, of which the last is the end of the line; the model prefers the successor of the token. -/
example : gptGenerate 6 12 0 (fun x v s => if v = x.getD s 0 + 1 then 1 else (0 : Int)) [[7, 8, 5]] 3 = .ok ([7, 8, 9, 10, 11, 0], 2) := by decide

end NNTile
