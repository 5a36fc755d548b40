import Verif.Lib.Fp16
import Verif.Spec.Tile
import Verif.Props.C58
/-!
# C73: conversion between single and half precision
-/
namespace NNTile
variable {α : Type}

/-- `fp32_to_fp16`: each element is converted, whatever was in the destination before. -/
theorem C73_fp32_to_fp16 {src dst : Tensor} {s : Store α} (c : HalfConv α) (hs : src.Ready s) (hd : dst.Ready s) (hlike : src.Like dst) (x : List Nat → α)
    (hx : src.Holds s x) : Computes (fp32ToFp16Async true c src dst) s dst (fun I => c.float2half (x I)) := by
  obtain ⟨hid, h1, h2⟩ := hlike
  unfold fp32ToFp16Async
  rw [checkSame'_ok h1 h2, M.bind_ok, conv_loop h1 h2 (submit := submitFp32ToFp16 true c) (submit' := fun n a b => task1 "fp32_to_fp16" a .W b (fp32ToFp16Kernel c n)) (fun _ _ _ => rfl)]
  refine computes1 hd hs.2 hid h1 h2 (mode := .W)
    (body := fun src i dst => do
      let x ← src.rd i
      dst.wr i (c.float2half x)) (fun n h h' => rfl) _
    (fun a o v => ∃ x, a = some x ∧ v = c.float2half x)
    ?_ (fun I hI => ⟨x I, hx I (h1 ▸ hI), rfl⟩)
  rintro i a d v ha hi ⟨x, e, rfl⟩
  simp only [Buf.rd_ok ha e, M.bind_ok]
  exact Buf.wr_put hi

/-- `fp16_to_fp32`: each element is converted, whatever was in the destination before. -/
theorem C73_fp16_to_fp32 {src dst : Tensor} {s : Store α} (c : HalfConv α) (hs : src.Ready s) (hd : dst.Ready s) (hlike : src.Like dst) (x : List Nat → α)
    (hx : src.Holds s x) : Computes (fp16ToFp32Async true c src dst) s dst (fun I => c.half2float (x I)) := by
  obtain ⟨hid, h1, h2⟩ := hlike
  unfold fp16ToFp32Async
  rw [checkSame'_ok h1 h2, M.bind_ok, conv_loop h1 h2 (submit := submitFp16ToFp32 true c) (submit' := fun n a b => task1 "fp16_to_fp32" a .W b (fp16ToFp32Kernel c n)) (fun _ _ _ => rfl)]
  refine computes1 hd hs.2 hid h1 h2 (mode := .W)
    (body := fun src i dst => do
      let x ← src.rd i
      dst.wr i (c.half2float x)) (fun n h h' => rfl) _
    (fun a o v => ∃ x, a = some x ∧ v = c.half2float x)
    ?_ (fun I hI => ⟨x I, hx I (h1 ▸ hI), rfl⟩)
  rintro i a d v ha hi ⟨x, e, rfl⟩
  simp only [Buf.rd_ok ha e, M.bind_ok]
  exact Buf.wr_put hi

/-- A tensor of half precision converted to single precision and back is unchanged, if all of its values survive the two conversions. -/
theorem C73_roundtrip {src tmp dst : Tensor} {s : Store α} (c : HalfConv α) (hs : src.Ready s) (ht : tmp.Ready s) (hd : dst.Ready s) (h1 : src.Like tmp) (h2 : tmp.Like dst)
    (x : List Nat → α) (hx : src.Holds s x) (hc : ∀ I, InBox src.shape I → c.float2half (c.half2float (x I)) = x I) :
    ∃ ts ts' s', fp16ToFp32Async true c src tmp = .ok ts ∧ fp32ToFp16Async true c tmp dst = .ok ts' ∧ runAll1 (ts ++ ts') s = .ok s' ∧ dst.Holds s' x := by
  obtain ⟨ts, s1, e1, r1, v1, o1, t1⟩ := C73_fp16_to_fp32 c hs ht h1 x hx
  have hd1 : dst.Ready s1 := o1.ready hd (by simpa using fun e => h2.1 e.symm)
  obtain ⟨ts', s2, e2, r2, v2, o2, t2⟩ := C73_fp32_to_fp16 c t1 hd1 h2 _ v1
  refine ⟨ts, ts', s2, e1, e2, ?_, fun I hI => ?_⟩
  · rw [runAll1_append, r1, M.bind_ok, r2]
  · rw [v2 I hI]
    exact congrArg some (hc I (by rw [h1.2.1, h2.2.1]; exact hI))

/-- Tensors of different shapes or tilings are rejected. -/
theorem C73_rejects {src dst : Tensor} (cuda : Bool) (c : HalfConv α) (h : src.shape ≠ dst.shape ∨ src.basetile ≠ dst.basetile) :
    Throws (fp32ToFp16Async cuda c src dst) ∧ Throws (fp16ToFp32Async cuda c src dst) :=
  ⟨(checkSame'_throws h).bind, (checkSame'_throws h).bind⟩

/-- In a build without CUDA the conversions always throw an exception. -/
theorem C73_no_cuda {src dst : Tensor} (c : HalfConv α) : Throws (fp32ToFp16Async false c src dst) ∧ Throws (fp16ToFp32Async false c src dst) := by
  by_cases h : src.shape ≠ dst.shape ∨ src.basetile ≠ dst.basetile
  · exact C73_rejects false c h
  · simp only [not_or, ne_eq, Decidable.not_not] at h
    have hn : 0 < src.ntiles := src.ntiles_pos
    have hn' : 0 < dst.ntiles := by rw [Tensor.ntiles, Tensor.grid, ← h.1, ← h.2]; exact hn
    unfold fp32ToFp16Async fp16ToFp32Async
    rw [checkSame'_ok h.1 h.2, M.bind_ok, M.bind_ok]
    constructor <;> refine forTasks_throws hn ?_ <;> rw [Tensor.handleL, if_pos hn, M.bind_ok, Tensor.handleL, if_pos hn', M.bind_ok] <;> exact ⟨_, rfl⟩

/-- The tile functions do what the tensor functions do for tensors of one tile. -/
theorem C73_tile {src dst : Tile} (cuda : Bool) (c : HalfConv α) (hs : src.WF) :
    SameOutcome (tileFp32ToFp16 cuda c src dst) (fp32ToFp16Async cuda c src.one dst.one) ∧ SameOutcome (tileFp16ToFp32 cuda c src dst) (fp16ToFp32Async cuda c src.one dst.one) := by
  by_cases h : src.shape = dst.shape
  · have hd : dst.WF := by unfold Tile.WF; rw [← h]; exact hs
    have e : dst.nelems = src.nelems := by rw [Tile.nelems, Tile.nelems, h]
    have h1 : src.one.shape = dst.one.shape := h
    have h2 : src.one.basetile = dst.one.basetile := h
    have ht : tileCheckShape src dst = .ok () := throwIf_neg (by simpa using h)
    unfold tileFp32ToFp16 tileFp16ToFp32 fp32ToFp16Async fp16ToFp32Async
    simp only [checkSame'_ok h1 h2, ht, M.bind_ok, Tile.one_ntiles, forTasks_one, Tile.one_handleL, Tile.one_tnelems hd, e]
    exact ⟨(SimM.refl _).same, (SimM.refl _).same⟩
  · have ht : Throws (tileCheckShape src dst) := by
      unfold tileCheckShape
      rw [throwIf_pos (by simpa using h)]
      exact ⟨_, rfl⟩
    have hr := C73_rejects (src := src.one) (dst := dst.one) cuda c (.inl h)
    exact ⟨.inl ⟨ht.bind, hr.1⟩, .inl ⟨ht.bind, hr.2⟩⟩

/-- The CUDA kernel computes what the CPU kernel computes. -/
theorem C73_cuda_fp32_to_fp16 [FP α] {n : Nat} (hn : n ≤ 2^31) (c : HalfConv α) {src dst dst' : Buf α} (h : fp32ToFp16Kernel c n src dst = .ok dst') :
    (fp32ToFp16Cuda c n : Launch α).Gives [src] dst dst' := by
  unfold fp32ToFp16Kernel at h
  unfold fp32ToFp16Cuda
  refine ew_gives hn _ _ _ _ ?_ ?_ h
  · cuda_foot
  · cuda_run

/-- The CUDA kernel computes what the CPU kernel computes. -/
theorem C73_cuda_fp16_to_fp32 [FP α] {n : Nat} (hn : n ≤ 2^31) (c : HalfConv α) {src dst dst' : Buf α} (h : fp16ToFp32Kernel c n src dst = .ok dst') :
    (fp16ToFp32Cuda c n : Launch α).Gives [src] dst dst' := by
  unfold fp16ToFp32Kernel at h
  unfold fp16ToFp32Cuda
  refine ew_gives hn _ _ _ _ ?_ ?_ h
  · cuda_foot
  · cuda_run

/-! ### Examples: a matrix of 3 by 5 in tiles of 2 by 2; half precision keeps only even numbers here -/
section examples

/-- Three tensors of integers; the first one is defined. -/
def convStore : Store ℤ := fun h => ⟨((⟨h.1, [3, 5], [2, 2]⟩ : Tensor).tshapeL h.2).prod, fun i => if h.1 = 0 then some (h.2 + i) else none⟩

/-- Rounding to even numbers. -/
def convExample : HalfConv ℤ := ⟨fun x => 2 * (x / 2), id⟩

def convSrc : Tensor := ⟨0, [3, 5], [2, 2]⟩
def convDst : Tensor := ⟨1, [3, 5], [2, 2]⟩

theorem convExample_ready : convSrc.Ready convStore ∧ convDst.Ready convStore ∧ convSrc.Like convDst ∧ ∃ x, convSrc.Holds convStore x :=
  ⟨⟨by decide, fun _ _ => rfl⟩, ⟨by decide, fun _ _ => rfl⟩, ⟨by decide, rfl, rfl⟩, fun I => ((convSrc.hOf I).2 + convSrc.oOf I : ℕ), fun I _ => by
    simp [Tensor.get, convStore, convSrc, Tensor.hOf]⟩

example : ∃ v, Computes (fp32ToFp16Async true convExample convSrc convDst) convStore convDst v :=
  let ⟨h1, h2, h3, x, h⟩ := convExample_ready
  ⟨_, C73_fp32_to_fp16 convExample h1 h2 h3 x h⟩

example : ∃ v, Computes (fp16ToFp32Async true convExample convSrc convDst) convStore convDst v :=
  let ⟨h1, h2, h3, x, h⟩ := convExample_ready
  ⟨_, C73_fp16_to_fp32 convExample h1 h2 h3 x h⟩

example : ∃ d, fp32ToFp16Kernel (⟨fun x => x / 2, fun x => 2 * x⟩ : HalfConv ℤ) 2 (Buf.ofList [1, 2]) (Buf.ofList [1, 2]) = .ok d := ⟨_, rfl⟩
example : ∃ d, fp16ToFp32Kernel (⟨fun x => x / 2, fun x => 2 * x⟩ : HalfConv ℤ) 2 (Buf.ofList [1, 2]) (Buf.ofList [1, 2]) = .ok d := ⟨_, rfl⟩

/-- Even numbers survive. -/
def convEven : Store ℤ := fun h => ⟨((⟨h.1, [3, 5], [2, 2]⟩ : Tensor).tshapeL h.2).prod, fun i => if h.1 = 0 then some (2 * (h.2 + i)) else none⟩

example : ∃ x ts ts' s', convSrc.Holds convEven x ∧ fp16ToFp32Async true convExample convSrc convDst = .ok ts ∧ fp32ToFp16Async true convExample convDst ⟨2, [3, 5], [2, 2]⟩ = .ok ts' ∧
    runAll1 (ts ++ ts') convEven = .ok s' ∧ (⟨2, [3, 5], [2, 2]⟩ : Tensor).Holds s' x := by
  have hx : convSrc.Holds convEven (fun I => 2 * ((convSrc.hOf I).2 + convSrc.oOf I : ℕ)) := fun I _ => by simp [Tensor.get, convEven, convSrc, Tensor.hOf]
  obtain ⟨ts, ts', s', h⟩ := C73_roundtrip (dst := ⟨2, [3, 5], [2, 2]⟩) (s := convEven) convExample ⟨by decide, fun _ _ => rfl⟩ ⟨by decide, fun _ _ => rfl⟩ ⟨by decide, fun _ _ => rfl⟩
    (⟨by decide, rfl, rfl⟩ : convSrc.Like convDst) ⟨by decide, rfl, rfl⟩ _ hx (fun I _ => by simp [convExample])
  exact ⟨_, ts, ts', s', hx, h⟩

end examples

end NNTile
