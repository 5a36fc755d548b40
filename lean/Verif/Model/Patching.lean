import Verif.Model.Torch
/-!
# Patches of images, `wrappers/python/nntile/torch_models/mlp_mixer.py`

For arrays see `Verif.Model.Torch`. `int(h * w / (patch_size ** 2))` and `int(w / patch_size)` go through Python floats; they are exact below 2^53 and modelled by integer division. Sizes are
natural numbers.
-/
namespace NNTile
variable {α : Type}

/-- `a[:, ..., i, ..., :]`: the dimension `axis` is removed. -/
def NdArray.pick (a : NdArray α) (axis i : Nat) : M (NdArray α) := do
  throwIf (a.shape.length ≤ axis ∨ a.shape.getD axis 0 ≤ i) "IndexError"
  .ok ⟨a.shape.eraseIdx axis, fun I => a.elem (I.take axis ++ i :: I.drop axis)⟩

/-- `a[i, j, lo:hi] = v` for an array `a` with three dimensions and a vector `v` of the same length. -/
def NdArray.setRow (a : NdArray α) (i j lo hi : Nat) (v : NdArray α) : M (NdArray α) := do
  throwIf (a.shape.length ≠ 3 ∨ a.shape.getD 0 0 ≤ i ∨ a.shape.getD 1 0 ≤ j) "IndexError"
  throwIf (v.shape ≠ [sliceLen (a.shape.getD 2 0) lo hi]) "RuntimeError"
  .ok ⟨a.shape, fun I => if I.getD 0 0 = i ∧ I.getD 1 0 = j ∧ lo ≤ I.getD 2 0 ∧ I.getD 2 0 < hi then v.elem [I.getD 2 0 - lo] else a.elem I⟩

/-- `torch.empty(S)`: nothing is known about the elements. -/
def NdArray.empty (S : List Nat) : NdArray α := ⟨S, fun _ => none⟩

/-- The body of the innermost loop of `image_patching_rgb`, `wrappers/python/nntile/torch_models/mlp_mixer.py:20-21`. -/
def patchRgbStep (image : NdArray α) (p batchIter i x y clr : Nat) (s : NdArray α) : M (NdArray α) := do
  let a ← image.pick 0 batchIter
  let a ← a.slice 0 (x * p) ((x + 1) * p)
  let a ← a.slice 1 (y * p) ((y + 1) * p)
  let a ← a.pick 2 clr
  let v ← a.reshape [a.shape.prod]
  s.setRow i batchIter (clr * p ^ 2) ((clr + 1) * p ^ 2) v

/-- `image_patching_rgb`, `wrappers/python/nntile/torch_models/mlp_mixer.py:5-22`: the patches, `n_patches`, `n_channels`. -/
def imagePatchingRgb (image : NdArray α) (p : Nat) : M (NdArray α × Nat × Nat) := do
  throwIf (image.shape.length ≠ 4) "ValueError"
  let b := image.shape.getD 0 0
  let h := image.shape.getD 1 0
  let w := image.shape.getD 2 0
  let c := image.shape.getD 3 0
  throwIf (p = 0) "ZeroDivisionError"
  throwIf (h % p ≠ 0 ∨ w % p ≠ 0) "patch size should be divisor of both image height and width"
  let n := h * w / p ^ 2
  let channels := c * p ^ 2
  let ny := w / p
  let s ← forN b (fun batchIter s => forN n (fun i s => forN c (fun clr s => patchRgbStep image p batchIter i (i / ny) (i % ny) clr s) s) s) (NdArray.empty [n, b, channels])
  .ok (s, n, channels)

/-- The body of the inner loop of `image_patching`, `wrappers/python/nntile/torch_models/mlp_mixer.py:37`. PyTorch drops leading dimensions of size one of the right side, so that its shape
(1, 1, p²) is that of a vector. -/
def patchStep (image : NdArray α) (p i x y j : Nat) (s : NdArray α) : M (NdArray α) := do
  let a ← image.slice 0 (x * p) ((x + 1) * p)
  let a ← a.pick 1 j
  let a ← a.slice 1 (y * p) ((y + 1) * p)
  let v ← a.reshape [p ^ 2]
  s.setRow i j 0 (s.shape.getD 2 0) v

/-- `image_patching`, `wrappers/python/nntile/torch_models/mlp_mixer.py:25-38`. -/
def imagePatching (image : NdArray α) (p : Nat) : M (NdArray α) := do
  throwIf (image.shape.length ≠ 3) "ValueError"
  let h := image.shape.getD 0 0
  let b := image.shape.getD 1 0
  let w := image.shape.getD 2 0
  throwIf (p = 0) "ZeroDivisionError"
  throwIf (h % p ≠ 0 ∨ w % p ≠ 0) "patch size should be divisor of image height and width"
  let n := h * w / p ^ 2
  let ny := w / p
  forN n (fun i s => forN b (fun j s => patchStep image p i (i / ny) (i % ny) j s) s) (NdArray.empty [n, b, p ^ 2])

end NNTile
