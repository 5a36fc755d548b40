import Verif.Lib.Patching
import Verif.Spec.Patching
/-!
# C71: images are cut into patches without losing, repeating or mixing pixels
-/
namespace NNTile
variable {α : Type}

theorem patch_cover {p H W : Nat} (hp : 0 < p) {i k : Nat} (hi : i < H * W) (hk : k < p * p) :
    i / W * p + k / p < H * p ∧ i % W * p + k % p < W * p ∧ patchOf p W (i / W * p + k / p) (i % W * p + k % p) = i ∧ posIn p (i / W * p + k / p) (i % W * p + k % p) = k := by
  obtain ⟨hW, hx, hy, a1, a2⟩ := patch_arith (p := p) hi
  have h1 : k / p < p := Nat.div_lt_of_lt_mul hk
  have h2 : k % p < p := Nat.mod_lt _ hp
  rw [Nat.succ_mul] at a1 a2
  refine ⟨by omega, by omega, ?_, ?_⟩
  · rw [patchOf, Nat.mul_comm _ p, Nat.mul_comm _ p, Nat.mul_add_div hp, Nat.mul_add_div hp, Nat.div_eq_of_lt h1, Nat.div_eq_of_lt h2]
    simpa using Nat.div_add_mod' i W
  · rw [posIn, Nat.mul_comm (i / W) p, Nat.mul_comm (i % W) p, Nat.mul_add_mod, Nat.mul_add_mod, Nat.mod_eq_of_lt h1, Nat.mod_eq_of_lt h2]
    exact Nat.div_add_mod' k p

theorem patch_pixel {p H W : Nat} (hp : 0 < p) {r c : Nat} (hr : r < H * p) (hc : c < W * p) :
    patchOf p W r c < H * W ∧ posIn p r c < p * p ∧ patchOf p W r c / W * p + posIn p r c / p = r ∧ patchOf p W r c % W * p + posIn p r c % p = c := by
  have h1 : r / p < H := Nat.div_lt_of_lt_mul (by rwa [Nat.mul_comm] at hr)
  have h2 : c / p < W := Nat.div_lt_of_lt_mul (by rwa [Nat.mul_comm] at hc)
  have h3 := Nat.mod_lt r hp
  have h4 := Nat.mod_lt c hp
  have hW : 0 < W := Nat.zero_lt_of_lt h2
  have e1 : patchOf p W r c / W = r / p := by rw [patchOf, Nat.mul_comm, Nat.mul_add_div hW, Nat.div_eq_of_lt h2, Nat.add_zero]
  have e2 : patchOf p W r c % W = c / p := by rw [patchOf, Nat.mul_comm, Nat.mul_add_mod, Nat.mod_eq_of_lt h2]
  have e3 : posIn p r c / p = r % p := by rw [posIn, Nat.mul_comm, Nat.mul_add_div hp, Nat.div_eq_of_lt h4, Nat.add_zero]
  have e4 : posIn p r c % p = c % p := by rw [posIn, Nat.mul_comm, Nat.mul_add_mod, Nat.mod_eq_of_lt h4]
  rw [e1, e2, e3, e4]
  refine ⟨?_, ?_, Nat.div_add_mod' r p, Nat.div_add_mod' c p⟩
  · have := Nat.mul_le_mul_right W h1
    rw [Nat.succ_mul] at this
    rw [patchOf]
    omega
  · have := Nat.mul_le_mul_right p h3
    rw [Nat.succ_mul] at this
    rw [posIn]
    omega

theorem patch_count {p H W : Nat} (hp : 0 < p) : H * p * (W * p) / p ^ 2 = H * W ∧ W * p / p = W := by
  refine ⟨?_, Nat.mul_div_cancel _ hp⟩
  rw [show H * p * (W * p) = H * W * p ^ 2 by ring]
  exact Nat.mul_div_cancel _ (by positivity)

/-- **`image_patching`.** For every batch of images of `h` rows and `w` columns (dimensions: rows, batch, columns) and every patch size which divides both: the result has one vector of `p²` elements for each
patch and image; every pixel is at its position of its patch, and there is nothing else: each element of the result is that of exactly one pixel. -/
theorem C71_patching {image : NdArray α} {p h b w : Nat} (hp : 0 < p) (hh : p ∣ h) (hw : p ∣ w) {x : List Nat → α} (hx : image.Is [h, b, w] x) :
    ∃ a, imagePatching image p = .ok a ∧ a.shape = [h / p * (w / p), b, p * p] ∧
      (∀ r j c, r < h → j < b → c < w → InBox a.shape [patchOf p (w / p) r c, j, posIn p r c] ∧ a.elem [patchOf p (w / p) r c, j, posIn p r c] = some (x [r, j, c])) ∧
      ∀ i j k, InBox a.shape [i, j, k] → ∃! rc : Nat × Nat, rc.1 < h ∧ rc.2 < w ∧ patchOf p (w / p) rc.1 rc.2 = i ∧ posIn p rc.1 rc.2 = k := by
  obtain ⟨H, rfl⟩ := hh
  obtain ⟨W, rfl⟩ := hw
  rw [Nat.mul_comm p H, Nat.mul_comm p W] at *
  rw [Nat.mul_div_cancel _ hp, Nat.mul_div_cancel _ hp]
  set y : List Nat → α := fun I => x [I.getD 0 0 / W * p + I.getD 2 0 / p, I.getD 1 0, I.getD 0 0 % W * p + I.getD 2 0 % p] with hy
  obtain ⟨a, e, hs, ha⟩ := forN_inv (n := H * W) (f := fun i s => forN b (fun j s => patchStep image p i (i / W) (i % W) j s) s) (s := NdArray.empty [H * W, b, p * p])
    (fun i s => s.shape = [H * W, b, p * p] ∧ ∀ I, I.getD 0 0 < i → InBox [H * W, b, p * p] I → s.elem I = some (y I)) ⟨rfl, fun I hI => by simp at hI⟩ (by
      intro i hi s ⟨hs, hI⟩
      obtain ⟨s', e', hs', h'⟩ := forN_inv (n := b) (f := fun j s => patchStep image p i (i / W) (i % W) j s) (s := s)
        (fun j s => s.shape = [H * W, b, p * p] ∧ ∀ I, (I.getD 0 0 < i ∨ I.getD 0 0 = i ∧ I.getD 1 0 < j) → InBox [H * W, b, p * p] I → s.elem I = some (y I))
        ⟨hs, fun I h => by rcases h with h | h; exacts [hI I h, by simp at h]⟩ (by
          intro j hj s ⟨hs, hI⟩
          obtain ⟨s', e', hs', h'⟩ := patchStep_is hp hx hi hj hs hI (fun k hk => by simp [hy])
          refine ⟨s', e', hs', fun I h hb => h' I ?_ hb⟩
          obtain ⟨u, v, k, rfl⟩ : ∃ a b c, I = [a, b, c] := by
            match I, hb with
            | [a, b, c], _ => exact ⟨a, b, c, rfl⟩
          simp only [List.getD_cons_succ, List.getD_cons_zero] at h ⊢
          by_cases hc : u = i ∧ v = j
          · exact .inr ⟨k, Nat.zero_le _, hb.2.2.1, by rw [hc.1, hc.2]⟩
          · left; omega)
      refine ⟨s', e', hs', fun I h hb => h' I ?_ hb⟩
      obtain ⟨u, v, k, rfl⟩ : ∃ a b c, I = [a, b, c] := by
        match I, hb with
        | [a, b, c], _ => exact ⟨a, b, c, rfl⟩
      have := hb.2.1
      simp only [List.getD_cons_succ, List.getD_cons_zero] at h ⊢
      omega)
  refine ⟨a, ?_, hs, ?_, ?_⟩
  · rw [imagePatching, throwIf_neg (by rw [hx.1]; simp), M.bind_ok]
    dsimp only
    rw [throwIf_neg hp.ne', M.bind_ok, hx.1]
    simp only [List.getD_cons_succ, List.getD_cons_zero]
    rw [throwIf_neg (by simp), M.bind_ok, (patch_count hp).1, (patch_count (H := H) hp).2, sq]
    exact e
  · intro r j c hr hj hc
    obtain ⟨h1, h2, h3, h4⟩ := patch_pixel hp hr hc
    have hb : InBox [H * W, b, p * p] [patchOf p W r c, j, posIn p r c] := ⟨h1, hj, h2, trivial⟩
    refine ⟨by rw [hs]; exact hb, ?_⟩
    rw [ha _ (by simpa using h1) hb, hy]
    simp only [List.getD_cons_succ, List.getD_cons_zero]
    rw [h3, h4]
  · intro i j k hb
    rw [hs] at hb
    obtain ⟨h1, h2, h3, h4⟩ := patch_cover hp hb.1 hb.2.2.1
    refine ⟨(_, _), ⟨h1, h2, h3, h4⟩, ?_⟩
    rintro ⟨r, c⟩ ⟨g1, g2, g3, g4⟩
    obtain ⟨-, -, f3, f4⟩ := patch_pixel hp g1 g2
    dsimp only at g3 g4
    rw [g3, g4] at f3 f4
    exact Prod.ext f3.symm f4.symm

/-- **`image_patching_rgb`.** The same for color images (dimensions: batch, rows, columns, colors): each patch has one block of `p²` elements for each color. -/
theorem C71_rgb {image : NdArray α} {p h b w m : Nat} (hp : 0 < p) (hh : p ∣ h) (hw : p ∣ w) {x : List Nat → α} (hx : image.Is [b, h, w, m] x) :
    ∃ a, imagePatchingRgb image p = .ok (a, h / p * (w / p), m * (p * p)) ∧ a.shape = [h / p * (w / p), b, m * (p * p)] ∧
      (∀ r j c q, r < h → j < b → c < w → q < m → InBox a.shape [patchOf p (w / p) r c, j, q * (p * p) + posIn p r c] ∧
        a.elem [patchOf p (w / p) r c, j, q * (p * p) + posIn p r c] = some (x [j, r, c, q])) ∧
      ∀ i j k, InBox a.shape [i, j, k] → ∃! rcq : Nat × Nat × Nat, rcq.1 < h ∧ rcq.2.1 < w ∧ rcq.2.2 < m ∧ patchOf p (w / p) rcq.1 rcq.2.1 = i ∧ rcq.2.2 * (p * p) + posIn p rcq.1 rcq.2.1 = k := by
  obtain ⟨H, rfl⟩ := hh
  obtain ⟨W, rfl⟩ := hw
  rw [Nat.mul_comm p H, Nat.mul_comm p W] at *
  rw [Nat.mul_div_cancel _ hp, Nat.mul_div_cancel _ hp]
  have hpp : 0 < p * p := Nat.mul_pos hp hp
  set y : List Nat → α := fun I => x [I.getD 1 0, I.getD 0 0 / W * p + I.getD 2 0 % (p * p) / p, I.getD 0 0 % W * p + I.getD 2 0 % (p * p) % p, I.getD 2 0 / (p * p)] with hy
  have shape3 : ∀ {A B C : Nat} {I : List Nat}, InBox [A, B, C] I → ∃ a b c, I = [a, b, c] := by
    intro A B C I hb
    match I, hb with
    | [a, b, c], _ => exact ⟨a, b, c, rfl⟩
  obtain ⟨a, e, hs, ha⟩ := forN_inv (n := b) (s := NdArray.empty [H * W, b, m * (p * p)])
    (f := fun j s => forN (H * W) (fun i s => forN m (fun clr s => patchRgbStep image p j i (i / W) (i % W) clr s) s) s)
    (fun j s => s.shape = [H * W, b, m * (p * p)] ∧ ∀ I, I.getD 1 0 < j → InBox [H * W, b, m * (p * p)] I → s.elem I = some (y I)) ⟨rfl, fun I hI => by simp at hI⟩ (by
      intro j hj s ⟨hs, hI⟩
      obtain ⟨s', e', hs', h'⟩ := forN_inv (n := H * W) (f := fun i s => forN m (fun clr s => patchRgbStep image p j i (i / W) (i % W) clr s) s) (s := s)
        (fun i s => s.shape = [H * W, b, m * (p * p)] ∧ ∀ I, (I.getD 1 0 < j ∨ I.getD 1 0 = j ∧ I.getD 0 0 < i) → InBox [H * W, b, m * (p * p)] I → s.elem I = some (y I))
        ⟨hs, fun I h => by rcases h with h | h; exacts [hI I h, by simp at h]⟩ (by
          intro i hi s ⟨hs, hI⟩
          obtain ⟨s', e', hs', h'⟩ := forN_inv (n := m) (f := fun clr s => patchRgbStep image p j i (i / W) (i % W) clr s) (s := s)
            (fun q s => s.shape = [H * W, b, m * (p * p)] ∧ ∀ I, (I.getD 1 0 < j ∨ I.getD 1 0 = j ∧ (I.getD 0 0 < i ∨ I.getD 0 0 = i ∧ I.getD 2 0 < q * (p * p))) → InBox [H * W, b, m * (p * p)] I →
              s.elem I = some (y I)) ⟨hs, fun I h => hI I (by
                rw [Nat.zero_mul] at h
                rcases h with h | ⟨h1, h | ⟨-, h⟩⟩
                · exact .inl h
                · exact .inr ⟨h1, h⟩
                · exact absurd h (Nat.not_lt_zero _))⟩ (by
              intro q hq s ⟨hs, hI⟩
              obtain ⟨s', e', hs', h'⟩ := patchRgbStep_is hp hx hi hj hq hs hI (fun k hk => by
                simp only [hy, List.getD_cons_succ, List.getD_cons_zero]
                rw [Nat.mul_comm q, Nat.mul_add_mod, Nat.mul_add_div hpp, Nat.mod_eq_of_lt hk, Nat.div_eq_of_lt hk, Nat.add_zero])
              refine ⟨s', e', hs', fun I h hb => h' I ?_ hb⟩
              obtain ⟨u, v, k, rfl⟩ := shape3 hb
              simp only [List.getD_cons_succ, List.getD_cons_zero] at h ⊢
              by_cases hc : u = i ∧ v = j ∧ q * (p * p) ≤ k
              · exact .inr ⟨k, hc.2.2, by
                  rcases h with h | ⟨-, h | ⟨-, h⟩⟩
                  · exact absurd hc.2.1 h.ne
                  · exact absurd hc.1 h.ne
                  · exact h, by rw [hc.1, hc.2.1]⟩
              · left; omega)
          refine ⟨s', e', hs', fun I h hb => h' I ?_ hb⟩
          obtain ⟨u, v, k, rfl⟩ := shape3 hb
          have : k < m * (p * p) := hb.2.2.1
          simp only [List.getD_cons_succ, List.getD_cons_zero] at h ⊢
          omega)
      refine ⟨s', e', hs', fun I h hb => h' I ?_ hb⟩
      obtain ⟨u, v, k, rfl⟩ := shape3 hb
      have : u < H * W := hb.1
      simp only [List.getD_cons_succ, List.getD_cons_zero] at h ⊢
      omega)
  refine ⟨a, ?_, hs, ?_, ?_⟩
  · rw [imagePatchingRgb, throwIf_neg (by rw [hx.1]; simp), M.bind_ok]
    dsimp only
    rw [throwIf_neg hp.ne', M.bind_ok, hx.1]
    simp only [List.getD_cons_succ, List.getD_cons_zero]
    rw [throwIf_neg (by simp), M.bind_ok, (patch_count hp).1, (patch_count (H := H) hp).2, sq, e, M.bind_ok]
  · intro r j c q hr hj hc hq
    obtain ⟨h1, h2, h3, h4⟩ := patch_pixel hp hr hc
    have hk : q * (p * p) + posIn p r c < m * (p * p) := by
      have := Nat.mul_le_mul_right (p * p) hq
      rw [Nat.succ_mul] at this
      omega
    have hb : InBox [H * W, b, m * (p * p)] [patchOf p W r c, j, q * (p * p) + posIn p r c] := ⟨h1, hj, hk, trivial⟩
    refine ⟨by rw [hs]; exact hb, ?_⟩
    rw [ha _ (by simpa using hj) hb, hy]
    simp only [List.getD_cons_succ, List.getD_cons_zero]
    rw [Nat.mul_comm q, Nat.mul_add_mod, Nat.mul_add_div hpp, Nat.mod_eq_of_lt h2, Nat.div_eq_of_lt h2, Nat.add_zero, h3, h4]
  · intro i j k hb
    rw [hs] at hb
    obtain ⟨h1, h2, h3, h4⟩ := patch_cover hp hb.1 (Nat.mod_lt k hpp)
    refine ⟨(_, _, k / (p * p)), ⟨h1, h2, Nat.div_lt_of_lt_mul (by rw [Nat.mul_comm]; exact hb.2.2.1), h3, ?_⟩, ?_⟩
    · dsimp only
      rw [h4]
      exact Nat.div_add_mod' k (p * p)
    · rintro ⟨r, c, q⟩ ⟨g1, g2, g3, g4, g5⟩
      obtain ⟨-, f2, f3, f4⟩ := patch_pixel hp g1 g2
      dsimp only at g4 g5
      have e1 : k / (p * p) = q := by rw [← g5, Nat.mul_comm, Nat.mul_add_div hpp, Nat.div_eq_of_lt f2, Nat.add_zero]
      have e2 : k % (p * p) = posIn p r c := by rw [← g5, Nat.mul_comm, Nat.mul_add_mod, Nat.mod_eq_of_lt f2]
      rw [g4, ← e2] at f3 f4
      rw [e1, f3, f4]

/-- Other patch sizes and numbers of dimensions: an exception. -/
theorem C71_rejects {image : NdArray α} {p : Nat} :
    ((image.shape.length ≠ 3 ∨ p = 0 ∨ ¬ p ∣ image.shape.getD 0 0 ∨ ¬ p ∣ image.shape.getD 2 0) → Throws (imagePatching image p)) ∧
      ((image.shape.length ≠ 4 ∨ p = 0 ∨ ¬ p ∣ image.shape.getD 1 0 ∨ ¬ p ∣ image.shape.getD 2 0) → Throws (imagePatchingRgb image p)) := by
  constructor
  all_goals
    intro h
    first | rw [imagePatching] | rw [imagePatchingRgb]
    refine throws_step fun h1 => ?_
    dsimp only
    refine throws_step fun h2 => ?_
    refine throws_pos ?_
    rw [Nat.dvd_iff_mod_eq_zero, Nat.dvd_iff_mod_eq_zero] at h
    tauto

/-! ### The hypotheses can be met -/

/-- A batch of 3 images of 4×6 pixels in patches of 2×2: the pixel in row 3, column 4 of the second image is the third one of the last patch. -/
example (x : List Nat → α) : ∃ a, imagePatching (ndOf [4, 3, 6] x) 2 = .ok a ∧ a.shape = [6, 3, 4] ∧ a.elem [5, 1, 2] = some (x [3, 1, 4]) := by
  obtain ⟨a, e, hs, h, -⟩ := C71_patching (p := 2) (by decide) (by decide) (by decide) (ndOf_is [4, 3, 6] x)
  exact ⟨a, e, hs, (h 3 1 4 (by decide) (by decide) (by decide)).2⟩

example (x : List Nat → α) : ∃ a, imagePatchingRgb (ndOf [2, 4, 6, 3] x) 2 = .ok (a, 6, 12) ∧ a.elem [5, 1, 10] = some (x [1, 3, 4, 2]) := by
  obtain ⟨a, e, hs, h, -⟩ := C71_rgb (p := 2) (by decide) (by decide) (by decide) (ndOf_is [2, 4, 6, 3] x)
  exact ⟨a, e, (h 3 1 4 2 (by decide) (by decide) (by decide) (by decide)).2⟩

example (x : List Nat → α) : Throws (imagePatching (ndOf [4, 3, 6] x) 4) := C71_rejects.1 (.inr (.inr (.inr (by simp [ndOf]))))

end NNTile
