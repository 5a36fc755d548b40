import Verif.Lib.Elementwise
import Verif.Lib.RealFP
/-!
# C11 — element-wise tensor operations do not depend on the tiling

All theorems quantify over every shape, every tiling and every previous contents. `FP α` is an arbitrary interpretation of the scalar
operations (so these theorems are bit-exact); theorems over `ℝ` are in exact arithmetic.
-/
namespace NNTile
section anyScalar
variable {α : Type}

/-- `fill`: whatever was in the tensor before, each element becomes `val`. -/
theorem C11_fill {A : Tensor} {s : Store α} (hA : A.Ready s) (val : α) : Computes (fillAsync val A) s A (fun _ => val) := by
  refine computes0 hA (mode := .W) (body := fun i d => d.wr i val) (fun n h => rfl) _ (fun _ v => v = val) ?_ (by simp)
  rintro i d v hi rfl
  exact Buf.wr_put hi

variable [FP α]

/-- The formula of `gelutanh` with the compensation `c` of the rounding error of `y2`, `src/kernel/gelutanh/cpu.cc:49-58`. -/
def gelutanhFormula (z : α) : α :=
  let y1 := gtF4 * z * z
  let y2 := gtF3 + y1
  let c := y1 - (y2 - gtF3)
  z / (1 + FP.exp (c * z) * FP.exp (y2 * z))

/-- The formula of the derivative of `gelutanh`, `src/kernel/dgelutanh/cpu.cc:50-62`. -/
def dgelutanhFormula (z : α) : α :=
  let expy1 := FP.exp (z * (gtF3 + gtF4 * (z * z)))
  if FP.isInf expy1 then 0
  else (1 - z * (gtF3 + gtF5 * (z * z)) * (1 - 1 / (expy1 + 1))) * (1 / (expy1 + 1))

/-- `clear`. -/
theorem C11_clear {A : Tensor} {s : Store α} (hA : A.Ready s) : Computes (clearAsync A) s A (fun _ => (0 : α)) := by
  obtain ⟨s', h⟩ := run_ew (srcs := []) hA (by simp) (fun _ _ n => n = some (0 : α)) (fun i => submitClear (A.id, i))
    (fun _ rs b => match rs with
      | [] => clearKernel b
      | _ => .error (.ub "buffers"))
    (by
      intro n rs b new h0 h1 h2 h3
      have : rs = [] := by simpa using h0
      subst this
      refine ⟨_, rfl, h2, ?_⟩
      intro i hi
      simp [h2, hi, h3 i hi])
    .W (by intro i hi; exact ⟨rfl, rfl, rfl, rfl⟩) (fun _ => (0 : α)) (by intro I hI; rfl)
  exact ⟨_, s', loop0_ok, h⟩

/-- `scal_inplace`: `data = alpha*data`. -/
theorem C11_scal_inplace {A : Tensor} {s : Store α} (hA : A.Ready s) (alpha : α) (x : List Nat → α) (hx : A.Holds s x) :
    Computes (scalInplaceAsync alpha A) s A (fun I => alpha * x I) := by
  refine computes0 hA (mode := .RW)
    (body := fun i data => do
      let x ← data.rd i
      data.wr i (alpha * x)) (fun n h => rfl) _
    (fun o v => ∃ x, o = some x ∧ v = alpha * x) ?_ (fun I hI => ⟨x I, by simpa using hx I hI, rfl⟩)
  rintro i d v hi ⟨x, e, rfl⟩
  rw [Buf.rd_ok hi e]
  exact Buf.wr_put hi

theorem C11_add_scalar_bits {A : Tensor} {s : Store α} (hA : A.Ready s) (alpha beta : α) (x : List Nat → α) (hx : A.Holds s x) :
    Computes (addScalarAsync alpha beta A) s A (fun I => if FP.eqb alpha 0 && FP.eqb beta 1 then x I else alpha + beta * x I) := by
  simp only [addScalarAsync]
  by_cases hc : (FP.eqb alpha 0 && FP.eqb beta 1) = true
  · simp only [hc, if_true]
    exact ⟨[], s, rfl, rfl, hx, fun _ _ => rfl, hA⟩
  · simp only [hc]
    refine computes0 hA (mode := .RW)
      (body := fun i dst => do
        let y ← dst.rd i
        dst.wr i (alpha + beta * y)) (fun n h => rfl) _
      (fun o v => ∃ x, o = some x ∧ v = alpha + beta * x) ?_ (fun I hI => ⟨x I, by simpa using hx I hI, rfl⟩)
    rintro i d v hi ⟨x, e, rfl⟩
    rw [Buf.rd_ok hi e]
    exact Buf.wr_put hi

/-- `pow`: `data = alpha*data^exp`, the reciprocal being computed by a division. -/
theorem C11_pow {A : Tensor} {s : Store α} (hA : A.Ready s) (alpha exp : α) (x : List Nat → α) (hx : A.Holds s x) :
    Computes (powAsync alpha exp A) s A (fun I => if FP.eqb exp (-1) then alpha / (x I) else alpha * FP.pow (x I) exp) := by
  refine computes0 hA (mode := .RW)
    (body := fun i data => do
      let z ← data.rd i
      if FP.eqb exp (-1) then data.wr i (alpha / z)
      else data.wr i (alpha * FP.pow z exp)) (fun n h => rfl) _
    (fun o v => ∃ z, o = some z ∧ v = if FP.eqb exp (-1) then alpha / z else alpha * FP.pow z exp) ?_ (fun I hI => ⟨x I, by simpa using hx I hI, rfl⟩)
  rintro i d v hi ⟨z, e, rfl⟩
  simp only [Buf.rd_ok hi e, M.bind_ok]
  split <;> exact Buf.wr_put hi

/-- `sqrt_inplace`: `data = sqrt(data)`. -/
theorem C11_sqrt_inplace {A : Tensor} {s : Store α} (hA : A.Ready s) (x : List Nat → α) (hx : A.Holds s x) :
    Computes (sqrtInplaceAsync A) s A (fun I => FP.sqrt (x I)) := by
  refine computes0 hA (mode := .RW)
    (body := fun i data => do
      let z ← data.rd i
      data.wr i (FP.sqrt z)) (fun n h => rfl) _
    (fun o v => ∃ z, o = some z ∧ v = FP.sqrt z) ?_ (fun I hI => ⟨x I, by simpa using hx I hI, rfl⟩)
  rintro i d v hi ⟨z, e, rfl⟩
  simp only [Buf.rd_ok hi e, M.bind_ok]
  exact Buf.wr_put hi

/-- `relu`: `data = max(data, 0)`. -/
theorem C11_relu {A : Tensor} {s : Store α} (hA : A.Ready s) (x : List Nat → α) (hx : A.Holds s x) :
    Computes (reluAsync A) s A (fun I => FP.fmax (x I) 0) := by
  refine computes0 hA (mode := .RW)
    (body := fun i data => do
      let z ← data.rd i
      data.wr i (FP.fmax z 0)) (fun n h => rfl) _
    (fun o v => ∃ z, o = some z ∧ v = FP.fmax z 0) ?_ (fun I hI => ⟨x I, by simpa using hx I hI, rfl⟩)
  rintro i d v hi ⟨z, e, rfl⟩
  simp only [Buf.rd_ok hi e, M.bind_ok]
  exact Buf.wr_put hi

/-- `drelu`: `data = (data > 0) ? 1 : 0`. -/
theorem C11_drelu {A : Tensor} {s : Store α} (hA : A.Ready s) (x : List Nat → α) (hx : A.Holds s x) :
    Computes (dreluAsync A) s A (fun I => if FP.ltb 0 (x I) then (1 : α) else 0) := by
  refine computes0 hA (mode := .RW)
    (body := fun i data => do
      let z ← data.rd i
      if FP.ltb 0 z then data.wr i 1 else data.wr i 0) (fun n h => rfl) _
    (fun o v => ∃ z, o = some z ∧ v = if FP.ltb 0 z then (1 : α) else 0) ?_ (fun I hI => ⟨x I, by simpa using hx I hI, rfl⟩)
  rintro i d v hi ⟨z, e, rfl⟩
  simp only [Buf.rd_ok hi e, M.bind_ok]
  split <;> exact Buf.wr_put hi

/-- `gelu`: `data = 0.5 data erfc(-data/sqrt(2))`. -/
theorem C11_gelu {A : Tensor} {s : Store α} (hA : A.Ready s) (x : List Nat → α) (hx : A.Holds s x) :
    Computes (geluAsync A) s A (fun I => (FP.lit (1/2) * (x I)) * FP.erfc (-1 / FP.sqrt (FP.lit 2) * (x I))) := by
  refine computes0 hA (mode := .RW)
    (body := fun i data => do
      let z ← data.rd i
      data.wr i ((FP.lit (1/2) * z) * FP.erfc (-1 / FP.sqrt (FP.lit 2) * z))) (fun n h => rfl) _
    (fun o v => ∃ z, o = some z ∧ v = (FP.lit (1/2) * z) * FP.erfc (-1 / FP.sqrt (FP.lit 2) * z)) ?_ (fun I hI => ⟨x I, by simpa using hx I hI, rfl⟩)
  rintro i d v hi ⟨z, e, rfl⟩
  simp only [Buf.rd_ok hi e, M.bind_ok]
  exact Buf.wr_put hi

/-- `dgelu`: derivative of gelu (see C25). -/
theorem C11_dgelu {A : Tensor} {s : Store α} (hA : A.Ready s) (x : List Nat → α) (hx : A.Holds s x) :
    Computes (dgeluAsync A) s A (fun I => (x I) * (1 / FP.sqrt (FP.lit 2 * FP.pi)) * FP.exp (-FP.lit (1/2) * (x I) * (x I)) + FP.lit (1/2) * FP.erfc (-1 / FP.sqrt (FP.lit 2) * (x I))) := by
  refine computes0 hA (mode := .RW)
    (body := fun i data => do
      let z ← data.rd i
      data.wr i (z * (1 / FP.sqrt (FP.lit 2 * FP.pi)) * FP.exp (-FP.lit (1/2) * z * z) + FP.lit (1/2) * FP.erfc (-1 / FP.sqrt (FP.lit 2) * z))) (fun n h => rfl) _
    (fun o v => ∃ z, o = some z ∧ v = z * (1 / FP.sqrt (FP.lit 2 * FP.pi)) * FP.exp (-FP.lit (1/2) * z * z) + FP.lit (1/2) * FP.erfc (-1 / FP.sqrt (FP.lit 2) * z)) ?_ (fun I hI => ⟨x I, by simpa using hx I hI, rfl⟩)
  rintro i d v hi ⟨z, e, rfl⟩
  simp only [Buf.rd_ok hi e, M.bind_ok]
  exact Buf.wr_put hi

/-- `gelutanh_inplace`: `data = data/(1+exp(data (f3 + f4 data^2)))`. -/
theorem C11_gelutanh_inplace {A : Tensor} {s : Store α} (hA : A.Ready s) (x : List Nat → α) (hx : A.Holds s x) :
    Computes (gelutanhInplaceAsync A) s A (fun I => (x I) / (1 + FP.exp ((x I) * (gtF3 + gtF4 * (x I) * (x I))))) := by
  refine computes0 hA (mode := .RW)
    (body := fun i data => do
      let z ← data.rd i
      data.wr i (z / (1 + FP.exp (z * (gtF3 + gtF4 * z * z))))) (fun n h => rfl) _
    (fun o v => ∃ z, o = some z ∧ v = z / (1 + FP.exp (z * (gtF3 + gtF4 * z * z)))) ?_ (fun I hI => ⟨x I, by simpa using hx I hI, rfl⟩)
  rintro i d v hi ⟨z, e, rfl⟩
  simp only [Buf.rd_ok hi e, M.bind_ok]
  exact Buf.wr_put hi

/-- `dgelutanh`: derivative of gelutanh (see C25). -/
theorem C11_dgelutanh {A : Tensor} {s : Store α} (hA : A.Ready s) (x : List Nat → α) (hx : A.Holds s x) :
    Computes (dgelutanhAsync A) s A (fun I => dgelutanhFormula (x I)) := by
  refine computes0 hA (mode := .RW)
    (body := fun i data => do
      let z ← data.rd i
      let z2 := z * z
      let y1 := z * (gtF3 + gtF4 * z2)
      let y2 := z * (gtF3 + gtF5 * z2)
      let expy1 := FP.exp y1
      if FP.isInf expy1 then data.wr i 0
      else
        let inv := 1 / (expy1 + 1)
        data.wr i ((1 - y2 * (1 - inv)) * inv)) (fun n h => rfl) _
    (fun o v => ∃ z, o = some z ∧ v = dgelutanhFormula z) ?_ (fun I hI => ⟨x I, by simpa using hx I hI, rfl⟩)
  rintro i d v hi ⟨z, e, rfl⟩
  simp only [Buf.rd_ok hi e, M.bind_ok]
  simp only [dgelutanhFormula]
  split <;> exact Buf.wr_put hi

/-- `hypot_scalar_inverse`: `dst = 1/hypot(alpha*dst, eps)`. -/
theorem C11_hypot_scalar_inverse {A : Tensor} {s : Store α} (hA : A.Ready s) (eps alpha : α) (x : List Nat → α) (hx : A.Holds s x) :
    Computes (hypotScalarInverseAsync eps alpha A) s A (fun I => FP.lit 1 / FP.hypot (alpha * (x I)) eps) := by
  refine computes0 hA (mode := .RW)
    (body := fun i data => do
      let z ← data.rd i
      data.wr i (FP.lit 1 / FP.hypot (alpha * z) eps)) (fun n h => rfl) _
    (fun o v => ∃ z, o = some z ∧ v = FP.lit 1 / FP.hypot (alpha * z) eps) ?_ (fun I hI => ⟨x I, by simpa using hx I hI, rfl⟩)
  rintro i d v hi ⟨z, e, rfl⟩
  simp only [Buf.rd_ok hi e, M.bind_ok]
  exact Buf.wr_put hi

/-- `prod`: `dst = dst*src`. -/
theorem C11_prod {src dst : Tensor} {s : Store α} (hs : src.Ready s) (hd : dst.Ready s) (hlike : src.Like dst) (x y : List Nat → α)
    (hx : src.Holds s x) (hy : dst.Holds s y) : Computes (prodAsync src dst) s dst (fun I => y I * x I) := by
  obtain ⟨hid, h1, h2⟩ := hlike
  simp only [prodAsync, checkSame'_ok h1 h2, M.bind_ok]
  refine computes1 hd hs.2 hid h1 h2 (mode := .RW)
    (body := fun src i dst => do
      let y ← dst.rd i
      let x ← src.rd i
      dst.wr i (y * x)) (fun n h h' => rfl) _
    (fun a o v => ∃ x y, a = some x ∧ o = some y ∧ v = y * x)
    ?_ (fun I hI => ⟨x I, y I, hx I (h1 ▸ hI), by simpa using hy I hI, rfl⟩)
  rintro i a d v ha hi ⟨x, y, e, e', rfl⟩
  simp only [Buf.rd_ok ha e, Buf.rd_ok hi e', M.bind_ok]
  exact Buf.wr_put hi

/-- `maximum`: `dst = max(src, dst)`. -/
theorem C11_maximum {src dst : Tensor} {s : Store α} (hs : src.Ready s) (hd : dst.Ready s) (hlike : src.Like dst) (x y : List Nat → α)
    (hx : src.Holds s x) (hy : dst.Holds s y) : Computes (maximumAsync src dst) s dst (fun I => FP.fmax (x I) (y I)) := by
  obtain ⟨hid, h1, h2⟩ := hlike
  simp only [maximumAsync, checkSame'_ok h1 h2, M.bind_ok]
  refine computes1 hd hs.2 hid h1 h2 (mode := .RW)
    (body := fun src i dst => do
      let x ← src.rd i
      let y ← dst.rd i
      dst.wr i (FP.fmax x y)) (fun n h h' => rfl) _
    (fun a o v => ∃ x y, a = some x ∧ o = some y ∧ v = FP.fmax x y)
    ?_ (fun I hI => ⟨x I, y I, hx I (h1 ▸ hI), by simpa using hy I hI, rfl⟩)
  rintro i a d v ha hi ⟨x, y, e, e', rfl⟩
  simp only [Buf.rd_ok ha e, Buf.rd_ok hi e', M.bind_ok]
  exact Buf.wr_put hi

/-- `sqrt`: `dst = sqrt(src)`, whatever was in `dst` before. -/
theorem C11_sqrt {src dst : Tensor} {s : Store α} (hs : src.Ready s) (hd : dst.Ready s) (hlike : src.Like dst) (x : List Nat → α)
    (hx : src.Holds s x) : Computes (sqrtAsync src dst) s dst (fun I => FP.sqrt (x I)) := by
  obtain ⟨hid, h1, h2⟩ := hlike
  simp only [sqrtAsync, checkSame_ok h1 h2, M.bind_ok]
  refine computes1 hd hs.2 hid h1 h2 (mode := .W)
    (body := fun src i dst => do
      let x ← src.rd i
      dst.wr i (FP.sqrt x)) (fun n h h' => rfl) _
    (fun a o v => ∃ x, a = some x ∧ v = FP.sqrt x)
    ?_ (fun I hI => ⟨x I, hx I (h1 ▸ hI), rfl⟩)
  rintro i a d v ha hi ⟨x, e, rfl⟩
  simp only [Buf.rd_ok ha e, M.bind_ok]
  exact Buf.wr_put hi

/-- `relu_forward`: `dst = max(src, 0)`, whatever was in `dst` before. -/
theorem C11_relu_forward {src dst : Tensor} {s : Store α} (hs : src.Ready s) (hd : dst.Ready s) (hlike : src.Like dst) (x : List Nat → α)
    (hx : src.Holds s x) : Computes (reluForwardAsync src dst) s dst (fun I => FP.fmax (x I) 0) := by
  obtain ⟨hid, h1, h2⟩ := hlike
  simp only [reluForwardAsync, checkSame'_ok h1 h2, M.bind_ok]
  refine computes1 hd hs.2 hid h1 h2 (mode := .W)
    (body := fun src i dst => do
      let x ← src.rd i
      dst.wr i (FP.fmax x 0)) (fun n h h' => rfl) _
    (fun a o v => ∃ x, a = some x ∧ v = FP.fmax x 0)
    ?_ (fun I hI => ⟨x I, hx I (h1 ▸ hI), rfl⟩)
  rintro i a d v ha hi ⟨x, e, rfl⟩
  simp only [Buf.rd_ok ha e, M.bind_ok]
  exact Buf.wr_put hi

/-- `gelutanh`: whatever was in `dst` before; the formula is that of the code, with its compensation term (see C25 for what it equals). -/
theorem C11_gelutanh {src dst : Tensor} {s : Store α} (hs : src.Ready s) (hd : dst.Ready s) (hlike : src.Like dst) (x : List Nat → α)
    (hx : src.Holds s x) : Computes (gelutanhAsync src dst) s dst (fun I => gelutanhFormula (x I)) := by
  obtain ⟨hid, h1, h2⟩ := hlike
  simp only [gelutanhAsync, checkSame_ok h1 h2, M.bind_ok]
  refine computes1 hd hs.2 hid h1 h2 (mode := .W)
    (body := fun src i dst => do
      let z ← src.rd i
      let y1 := gtF4 * z * z
      let y2 := gtF3 + y1
      let c := y1 - (y2 - gtF3)
      let y2 := y2 * z
      let c := c * z
      let y3 := 1 + FP.exp c * FP.exp y2
      dst.wr i (z / y3)) (fun n h h' => rfl) _
    (fun a o v => ∃ x, a = some x ∧ v = gelutanhFormula x)
    ?_ (fun I hI => ⟨x I, hx I (h1 ▸ hI), rfl⟩)
  rintro i a d v ha hi ⟨x, e, rfl⟩
  simp only [Buf.rd_ok ha e, M.bind_ok]
  exact Buf.wr_put hi

/-- `relu_backward`: `dx += dy` where `x > 0`. -/
theorem C11_relu_backward {x dy dx : Tensor} {s : Store α} (hx : x.Ready s) (hdy : dy.Ready s) (hdx : dx.Ready s) (hxl : x.Like dx) (hdyl : dy.Like dx)
    (vx vdy vdx : List Nat → α) (hvx : x.Holds s vx) (hvdy : dy.Holds s vdy) (hvdx : dx.Holds s vdx) :
    Computes (reluBackwardAsync x dy dx) s dx (fun I => if FP.ltb 0 (vx I) then vdx I + vdy I else vdx I) := by
  obtain ⟨hid, h1, h2⟩ := hxl
  obtain ⟨hid', h3, h4⟩ := hdyl
  simp only [reluBackwardAsync, checkSame'_ok h1 h2, checkSame'_ok (h1.trans h3.symm) (h2.trans h4.symm), M.bind_ok]
  refine computes2 hdx hx.2 hid h1 h2 hdy.2 hid' h3 h4 (mode := .RW)
    (body := fun x dy i dx => do
      let xi ← x.rd i
      if FP.ltb 0 xi then do
        let d ← dx.rd i
        let g ← dy.rd i
        dx.wr i (d + g)
      else .ok dx) (fun n h h' h'' => rfl) _
    (fun a a' o v => ∃ z g d, a = some z ∧ a' = some g ∧ o = some d ∧ v = if FP.ltb 0 z then d + g else d)
    ?_ (fun I hI => ⟨vx I, vdy I, vdx I, hvx I (h1 ▸ hI), hvdy I (h3 ▸ hI), by simpa using hvdx I hI, rfl⟩)
  rintro i a a' b v ha ha' hi ⟨z, g, d, e, e', e'', rfl⟩
  simp only [Buf.rd_ok ha e, Buf.rd_ok ha' e', Buf.rd_ok hi e'', M.bind_ok]
  split
  · exact Buf.wr_put hi
  · rw [Buf.put_self e'']

/-- `gelu_backward`: `dx += gelu'(x)*dy` (see C25). -/
theorem C11_gelu_backward {x dy dx : Tensor} {s : Store α} (hx : x.Ready s) (hdy : dy.Ready s) (hdx : dx.Ready s) (hxl : x.Like dx) (hdyl : dy.Like dx)
    (vx vdy vdx : List Nat → α) (hvx : x.Holds s vx) (hvdy : dy.Holds s vdy) (hvdx : dx.Holds s vdx) :
    Computes (geluBackwardAsync x dy dx) s dx (fun I => vdx I + ((vx I) * (1 / FP.sqrt (FP.lit 2 * FP.pi)) * FP.exp (-FP.lit (1/2) * (vx I) * (vx I)) + FP.lit (1/2) * FP.erfc (-1 / FP.sqrt (FP.lit 2) * (vx I))) * (vdy I)) := by
  obtain ⟨hid, h1, h2⟩ := hxl
  obtain ⟨hid', h3, h4⟩ := hdyl
  simp only [geluBackwardAsync, checkSame'_ok h1 h2, checkSame'_ok (h1.trans h3.symm) (h2.trans h4.symm), M.bind_ok]
  refine computes2 hdx hx.2 hid h1 h2 hdy.2 hid' h3 h4 (mode := .RW)
    (body := fun x dy i dx => do
      let z ← x.rd i
      let expx := FP.exp (-FP.lit (1/2) * z * z)
      let y := FP.erfc (-1 / FP.sqrt (FP.lit 2) * z)
      let d ← dx.rd i
      let g ← dy.rd i
      dx.wr i (d + (z * (1 / FP.sqrt (FP.lit 2 * FP.pi)) * expx + FP.lit (1/2) * y) * g)) (fun n h h' h'' => rfl) _
    (fun a a' o v => ∃ z g d, a = some z ∧ a' = some g ∧ o = some d ∧ v = d + (z * (1 / FP.sqrt (FP.lit 2 * FP.pi)) * FP.exp (-FP.lit (1/2) * z * z) + FP.lit (1/2) * FP.erfc (-1 / FP.sqrt (FP.lit 2) * z)) * g)
    ?_ (fun I hI => ⟨vx I, vdy I, vdx I, hvx I (h1 ▸ hI), hvdy I (h3 ▸ hI), by simpa using hvdx I hI, rfl⟩)
  rintro i a a' b v ha ha' hi ⟨z, g, d, e, e', e'', rfl⟩
  simp only [Buf.rd_ok ha e, Buf.rd_ok ha' e', Buf.rd_ok hi e'', M.bind_ok]
  exact Buf.wr_put hi

/-- `gelutanh_backward`: `dx += gelutanh'(x)*dy` (see C25). -/
theorem C11_gelutanh_backward {x dy dx : Tensor} {s : Store α} (hx : x.Ready s) (hdy : dy.Ready s) (hdx : dx.Ready s) (hxl : x.Like dx) (hdyl : dy.Like dx)
    (vx vdy vdx : List Nat → α) (hvx : x.Holds s vx) (hvdy : dy.Holds s vdy) (hvdx : dx.Holds s vdx) :
    Computes (gelutanhBackwardAsync x dy dx) s dx (fun I => if FP.isInf (FP.exp ((vx I) * (gtF3 + gtF4 * ((vx I) * (vx I))))) then vdx I else vdx I + dgelutanhFormula (vx I) * (vdy I)) := by
  obtain ⟨hid, h1, h2⟩ := hxl
  obtain ⟨hid', h3, h4⟩ := hdyl
  simp only [gelutanhBackwardAsync, checkSame'_ok h1 h2, checkSame'_ok (h1.trans h3.symm) (h2.trans h4.symm), M.bind_ok]
  refine computes2 hdx hx.2 hid h1 h2 hdy.2 hid' h3 h4 (mode := .RW)
    (body := fun x dy i dx => do
      let z ← x.rd i
      let z2 := z * z
      let y1 := z * (gtF3 + gtF4 * z2)
      let y2 := z * (gtF3 + gtF5 * z2)
      let expy1 := FP.exp y1
      if ! FP.isInf expy1 then do
        let inv := 1 / (expy1 + 1)
        let d ← dx.rd i
        let g ← dy.rd i
        dx.wr i (d + (1 - y2 * (1 - inv)) * inv * g)
      else .ok dx) (fun n h h' h'' => rfl) _
    (fun a a' o v => ∃ z g d, a = some z ∧ a' = some g ∧ o = some d ∧ v = if FP.isInf (FP.exp (z * (gtF3 + gtF4 * (z * z)))) then d else d + dgelutanhFormula z * g)
    ?_ (fun I hI => ⟨vx I, vdy I, vdx I, hvx I (h1 ▸ hI), hvdy I (h3 ▸ hI), by simpa using hvdx I hI, rfl⟩)
  rintro i a a' b v ha ha' hi ⟨z, g, d, e, e', e'', rfl⟩
  simp only [Buf.rd_ok ha e, Buf.rd_ok ha' e', Buf.rd_ok hi e'', M.bind_ok]
  by_cases hc : FP.isInf (FP.exp (z * (gtF3 + gtF4 * (z * z)))) = true
  · simp only [hc, Bool.not_true, if_true]
    rw [Buf.put_self e'']
    rfl
  · simp only [hc, dgelutanhFormula, Bool.not_false, if_true, Bool.false_eq_true, if_false]
    exact Buf.wr_put hi

/-- `axpy`: `dst += alpha[0]*src` with the scalar `alpha` given as a tensor of dimension zero. -/
theorem C11_axpy {al src dst : Tensor} {s : Store α} (ha : al.Ready s) (hs : src.Ready s) (hd : dst.Ready s) (hsc : al.shape = [])
    (hida : al.id ≠ dst.id) (hlike : src.Like dst) (a : α) (x y : List Nat → α) (hav : al.get s [] = some a) (hx : src.Holds s x) (hy : dst.Holds s y) :
    Computes (axpyAsync al src dst) s dst (fun I => a * x I + y I) := by
  obtain ⟨hid, h1, h2⟩ := hlike
  have hb : al.basetile = [] := by have := ha.1.2.2; rw [hsc] at this; simpa using this
  have hsrc := hs.1
  have hnt : al.ntiles = 1 := by simp [Tensor.ntiles, Tensor.grid, hsc]
  have hn : src.ntiles = dst.ntiles := by simp [Tensor.ntiles, Tensor.grid, h1, h2]
  have hasz : (s (al.id, 0)).size = 1 := by
    rw [ha.2 0 (by omega)]; simp [Tensor.tshapeL, Tensor.tshape, hsc]
  have hadat : (s (al.id, 0)).data 0 = some a := by
    simpa [Tensor.get, Tensor.hOf, Tensor.oOf, Tensor.grid, hsc, Tensor.tshape] using hav
  have e : axpyAsync al src dst = .ok ((List.range dst.ntiles).flatMap
      (fun i => [submitAxpy (α := α) (al.id, 0) (dst.tnelems i) (src.id, i) (dst.id, i)])) := by
    simp only [axpyAsync]
    rw [throwIf_neg (by simp [hsc]), throwIf_neg (by simp [h1]), throwIf_neg (by simp [h2])]
    simp only [M.bind_ok, Tensor.handleL_ok (show 0 < al.ntiles by omega), hn]
    apply forTasks_ok
    intro i hi
    rw [Tensor.handleL_ok (by omega), Tensor.handleL_ok hi]
    simp [Tensor.tnelems, Tensor.tshapeL, Tensor.tshape, Tensor.tindex, Tensor.grid, h1, h2]
  obtain ⟨s', r1, r2, r3, r4⟩ := run_tilewise hd.1 hd.2
    (gt := fun i => [submitAxpy (α := α) (al.id, 0) (dst.tnelems i) (src.id, i) (dst.id, i)]) (fun I => some (a * x I + y I))
    (by
      intro i hi t ht
      simp only [List.mem_singleton] at ht
      subst ht; rfl)
    (by
      intro i hi t ht h hh
      simp only [List.mem_singleton] at ht
      subst ht
      simp only [submitAxpy, task2, List.mem_cons, List.not_mem_nil, or_false] at hh
      rcases hh with rfl | rfl
      · exact hida
      · exact hid)
    (by
      intro t ht
      have hgr : src.grid = dst.grid := by simp [Tensor.grid, h1, h2]
      have hsz := hd.2.size ht
      have hssz := hs.2.size (t := t) (by rw [hgr]; exact ht)
      have hts : src.tshape t = dst.tshape t := by simp [Tensor.tshape, h1, h2]
      rw [hgr, hts] at hssz
      have hk : ∀ b : Buf α, b.size = (dst.tshape t).prod → (∀ j, j < (dst.tshape t).prod → b.data j = (s (dst.id, lin dst.grid t)).data j) →
          axpyKernel (dst.tnelems (lin dst.grid t)) (s (al.id, 0)) (s (src.id, lin dst.grid t)) b = .ok ⟨b.size, fun j =>
            if j < (dst.tshape t).prod then some (a * x (globIdx dst.basetile t (unlin (dst.tshape t) j)) +
              y (globIdx dst.basetile t (unlin (dst.tshape t) j))) else b.data j⟩ := by
        intro b hb1 hb2
        simp only [axpyKernel, Buf.rd_ok (show 0 < (s (al.id, 0)).size by omega) hadat, M.bind_ok, Tensor.tnelems, Tensor.tshapeL_lin ht]
        refine forN_put (fun j => a * x (globIdx dst.basetile t (unlin (dst.tshape t) j)) +
              y (globIdx dst.basetile t (unlin (dst.tshape t) j))) ?_
        intro i hi d e1 e2
        have hl : InBox (dst.tshape t) (unlin (dst.tshape t) i) := unlin_inBox (hd.1.tshape_pos ht) i
        have hI := (hd.1.glob ht hl).1
        have g1 := hd.1.get_glob ht hl s
        have g2 := hs.1.get_glob (t := t) (l := unlin (dst.tshape t) i) (by rw [hgr]; exact ht) (by rw [hts]; exact hl) s
        rw [hgr, hts, h2, lin_unlin hi] at g2
        rw [lin_unlin hi] at g1
        rw [Buf.rd_ok (by omega) (g2.symm.trans (hx _ (h1 ▸ hI))),
          M.bind_ok, Buf.rd_ok (by omega) (e2.trans ((hb2 i hi).trans (g1.symm.trans (hy _ hI))))]
        exact Buf.wr_put (by omega)
      refine ⟨⟨(s (dst.id, lin dst.grid t)).size, fun j =>
            if j < (dst.tshape t).prod then some (a * x (globIdx dst.basetile t (unlin (dst.tshape t) j)) +
              y (globIdx dst.basetile t (unlin (dst.tshape t) j))) else (s (dst.id, lin dst.grid t)).data j⟩, ?_, ?_, ?_⟩
      · have := hk _ hsz (fun _ _ => rfl)
        simp only [foldBuf, submitAxpy, task2, Task1.inp, List.map_cons, List.map_nil, reduceCtorEq, if_false]
        rw [this]
        rfl
      · rfl
      · intro l hl
        simp only [lin_lt hl, if_true, unlin_lin hl])
  exact ⟨_, s', e, r1, r2, r3, hd.1, r4⟩

/-- `addcdiv`: `src += val*nom/(denom + eps)`. Missing from the full property: operands with different tilings are not rejected
(`C11_addcdiv_tiling_unchecked`). -/
theorem C11_addcdiv_partial {nom denom src : Tensor} {s : Store α} (hn : nom.Ready s) (hde : denom.Ready s) (hd : src.Ready s)
    (hnl : nom.Like src) (hdl : denom.Like src) (val eps : α) (vn vd vs : List Nat → α) (hvn : nom.Holds s vn) (hvd : denom.Holds s vd)
    (hvs : src.Holds s vs) :
    Computes (addcdivAsync val eps nom denom src) s src (fun I => vs I + val * vn I / (vd I + eps)) := by
  obtain ⟨hid, h1, h2⟩ := hnl
  obtain ⟨hid', h3, h4⟩ := hdl
  have e : addcdivAsync val eps nom denom src = .ok ((List.range src.ntiles).flatMap
      (fun i => [submitAddcdiv val eps (src.tnelems i) (nom.id, i) (denom.id, i) (src.id, i)])) := by
    simp only [addcdivAsync]
    rw [throwIf_neg (by simp [h1, h3]), throwIf_neg (by simp [h1])]
    simp only [M.bind_ok]
    apply forTasks_ok
    intro i hi
    have e1 : nom.ntiles = src.ntiles := by simp [Tensor.ntiles, Tensor.grid, h1, h2]
    have e2 : denom.ntiles = src.ntiles := by simp [Tensor.ntiles, Tensor.grid, h3, h4]
    rw [Tensor.handleL_ok hi, Tensor.handleL_ok (by omega), Tensor.handleL_ok (by omega)]
    rfl
  obtain ⟨s', h⟩ := run2 hd hn.2 hid h1 h2 hde.2 hid' h3 h4 (mode := .RW)
    (submit := fun n h h' h'' => submitAddcdiv val eps n h h' h'')
    (body := fun nom denom i res => do
      let r ← res.rd i
      let a ← nom.rd i
      let b ← denom.rd i
      res.wr i (r + val * a / (b + eps))) (fun n h h' h'' => rfl) (fun I => vs I + val * vn I / (vd I + eps))
    (fun a a' o v => ∃ z g d, a = some z ∧ a' = some g ∧ o = some d ∧ v = d + val * z / (g + eps))
    (by
      rintro i a a' b v ha ha' hi ⟨z, g, d, e, e', e'', rfl⟩
      simp only [Buf.rd_ok ha e, Buf.rd_ok ha' e', Buf.rd_ok hi e'', M.bind_ok]
      exact Buf.wr_put hi)
    (fun I hI => ⟨vn I, vd I, vs I, hvn I (h1 ▸ hI), hvd I (h3 ▸ hI), by simpa using hvs I hI, rfl⟩)
  exact ⟨_, s', e, h⟩

/-- `scal`: `dst = alpha*src`, whatever was in `dst` before; `alpha == 0` gives zeros without reading `src`. -/
theorem C11_scal_bits {src dst : Tensor} {s : Store α} (hs : src.Ready s) (hd : dst.Ready s) (hlike : src.Like dst) (alpha : α) (x : List Nat → α)
    (hx : src.Holds s x) : Computes (scalAsync alpha src dst) s dst (fun I => if FP.eqb alpha 0 then 0 else alpha * x I) := by
  obtain ⟨hid, h1, h2⟩ := hlike
  simp only [scalAsync, checkSame_ok h1 h2, M.bind_ok]
  exact computes_scal hs hd hid h1 h2 alpha x hx

/-- `add` as the code computes it: `beta == 0` and `alpha == 0, beta == 1` are special cases. Missing: the case `alpha == 0`, `beta ∉ {0,1}`
(`C11_add_refuted`). -/
theorem C11_add_bits_partial {src dst : Tensor} {s : Store α} (hs : src.Ready s) (hd : dst.Ready s) (hlike : src.Like dst) (alpha beta : α)
    (x y : List Nat → α) (hx : src.Holds s x) (hy : FP.eqb beta 0 = false ∨ FP.eqb beta 1 = true → dst.Holds s y)
    (hab : FP.eqb alpha 0 = false ∨ FP.eqb beta 0 = true ∨ FP.eqb beta 1 = true) :
    Computes (addAsync alpha src beta dst) s dst (fun I =>
      if FP.eqb alpha 0 && FP.eqb beta 1 then y I
      else if FP.eqb beta 0 then if FP.eqb alpha 0 then 0 else alpha * x I
      else alpha * x I + beta * y I) := by
  obtain ⟨hid, h1, h2⟩ := hlike
  simp only [addAsync, checkSame_ok h1 h2, M.bind_ok]
  by_cases hc : (FP.eqb alpha 0 && FP.eqb beta 1) = true
  · simp only [hc, if_true]
    simp only [Bool.and_eq_true] at hc
    exact ⟨[], s, rfl, rfl, hy (.inr hc.2), fun _ _ => rfl, hd⟩
  · simp only [hc]
    by_cases hb : FP.eqb beta 0 = true
    · simp only [submitAdd, hb, if_true, Bool.false_eq_true, if_false]
      exact computes_scal hs hd hid h1 h2 alpha x hx
    · have ha : FP.eqb alpha 0 = false := by
        by_contra h
        simp only [Bool.not_eq_false] at h
        simp [h] at hc
        simp_all
      simp only [submitAdd, hb, ha, Bool.false_eq_true, if_false]
      refine computes1 hd hs.2 hid h1 h2 (mode := .RW)
        (body := fun src i dst => do
          let x ← src.rd i
          let y ← dst.rd i
          dst.wr i (alpha * x + beta * y)) (fun n h h' => rfl) _
        (fun a o v => ∃ x y, a = some x ∧ o = some y ∧ v = alpha * x + beta * y)
        ?_ (fun I hI => ⟨x I, y I, hx I (h1 ▸ hI), by simpa using hy (.inl (by simpa using hb)) I hI, rfl⟩)
      rintro i a d v ha hi ⟨x, y, e, e', rfl⟩
      simp only [Buf.rd_ok ha e, Buf.rd_ok hi e', M.bind_ok]
      exact Buf.wr_put hi

/-- `hypot` as the code computes it. `beta == 0` does not read `dst`. -/
theorem C11_hypot_bits {src dst : Tensor} {s : Store α} (hs : src.Ready s) (hd : dst.Ready s) (hlike : src.Like dst) (alpha beta : α)
    (x y : List Nat → α) (hx : src.Holds s x) (hy : FP.eqb beta 0 = false ∨ FP.eqb beta 1 = true → dst.Holds s y) :
    Computes (hypotAsync alpha src beta dst) s dst (fun I =>
      if FP.eqb alpha 0 && FP.eqb beta 1 then y I
      else if FP.eqb alpha 0 then if FP.eqb beta 0 then 0 else FP.fabs (beta * y I)
      else if FP.eqb beta 0 then FP.fabs (alpha * x I) else FP.hypot (alpha * x I) (beta * y I)) := by
  obtain ⟨hid, h1, h2⟩ := hlike
  simp only [hypotAsync, checkSame_ok h1 h2, M.bind_ok]
  by_cases hc : (FP.eqb alpha 0 && FP.eqb beta 1) = true
  · simp only [hc, if_true]
    simp only [Bool.and_eq_true] at hc
    exact ⟨[], s, rfl, rfl, hy (.inr hc.2), fun _ _ => rfl, hd⟩
  · simp only [hc, Bool.false_eq_true, if_false]
    by_cases ha : FP.eqb alpha 0 = true <;> by_cases hb : FP.eqb beta 0 = true <;> simp only [ha, hb, if_true, Bool.false_eq_true, if_false]
    · refine computes1 hd hs.2 hid h1 h2 (body := fun src i dst => dst.wr i 0)
        (fun n h h' => by simp only [submitHypot, hypotKernel, ha, hb, if_true]; rfl) _
        (fun a o v => v = 0) ?_ (fun I hI => rfl)
      rintro i a d v _ hi rfl
      exact Buf.wr_put hi
    · refine computes1 hd hs.2 hid h1 h2 (mode := .RW)
        (body := fun src i dst => do
          let y ← dst.rd i
          dst.wr i (FP.fabs (beta * y)))
        (fun n h h' => by simp only [submitHypot, hypotKernel, ha, hb, if_true, Bool.false_eq_true, if_false, ite_self]; rfl) _
        (fun a o v => ∃ y, o = some y ∧ v = FP.fabs (beta * y)) ?_
        (fun I hI => ⟨y I, by simpa using hy (.inl (by simpa using hb)) I hI, rfl⟩)
      rintro i a d v _ hi ⟨y, e, rfl⟩
      simp only [Buf.rd_ok hi e, M.bind_ok]
      exact Buf.wr_put hi
    · refine computes1 hd hs.2 hid h1 h2
        (body := fun src i dst => do
          let x ← src.rd i
          dst.wr i (FP.fabs (alpha * x)))
        (fun n h h' => by simp only [submitHypot, hypotKernel, ha, hb, if_true, Bool.false_eq_true, if_false]; rfl) _
        (fun a o v => ∃ x, a = some x ∧ v = FP.fabs (alpha * x)) ?_
        (fun I hI => ⟨x I, hx I (h1 ▸ hI), rfl⟩)
      rintro i a d v ha hi ⟨y, e, rfl⟩
      simp only [Buf.rd_ok ha e, M.bind_ok]
      exact Buf.wr_put hi
    · refine computes1 hd hs.2 hid h1 h2 (mode := .RW)
        (body := fun src i dst => do
          let x ← src.rd i
          let y ← dst.rd i
          dst.wr i (FP.hypot (alpha * x) (beta * y)))
        (fun n h h' => by simp only [submitHypot, hypotKernel, ha, hb, Bool.false_eq_true, if_false, ite_self]; rfl) _
        (fun a o v => ∃ x y, a = some x ∧ o = some y ∧ v = FP.hypot (alpha * x) (beta * y)) ?_
        (fun I hI => ⟨x I, y I, hx I (h1 ▸ hI), by simpa using hy (.inl (by simpa using hb)) I hI, rfl⟩)
      rintro i a d v ha hi ⟨x, y, e, e', rfl⟩
      simp only [Buf.rd_ok ha e, Buf.rd_ok hi e', M.bind_ok]
      exact Buf.wr_put hi

end anyScalar

/-! ### Exact arithmetic -/
section real

/-- `scal` over the reals: `dst = alpha*src`. -/
theorem C11_scal {src dst : Tensor} {s : Store ℝ} (hs : src.Ready s) (hd : dst.Ready s) (hlike : src.Like dst) (alpha : ℝ) (x : List Nat → ℝ)
    (hx : src.Holds s x) : Computes (scalAsync alpha src dst) s dst (fun I => alpha * x I) := by
  have := C11_scal_bits hs hd hlike alpha x hx
  convert this using 2 with I
  by_cases h : alpha = 0 <;> simp [h]

/-- `add_scalar` over the reals: `dst = alpha + beta*dst`. -/
theorem C11_add_scalar {A : Tensor} {s : Store ℝ} (hA : A.Ready s) (alpha beta : ℝ) (x : List Nat → ℝ) (hx : A.Holds s x) :
    Computes (addScalarAsync alpha beta A) s A (fun I => alpha + beta * x I) := by
  have := C11_add_scalar_bits hA alpha beta x hx
  convert this using 2 with I
  split
  · rename_i h
    simp only [Bool.and_eq_true, eqb_real] at h
    rw [h.1, h.2]
    show (0 : ℝ) + 1 * x I = x I
    ring
  · rfl

/-- `add` over the reals: `dst = alpha*src + beta*dst`, except for `alpha = 0`, `beta ∉ {0, 1}`; the missing case is false
(`C11_add_refuted`). With `beta = 0` the old `dst` may be undefined. -/
theorem C11_add_partial {src dst : Tensor} {s : Store ℝ} (hs : src.Ready s) (hd : dst.Ready s) (hlike : src.Like dst) (alpha beta : ℝ)
    (x y : List Nat → ℝ) (hx : src.Holds s x) (hy : beta ≠ 0 → dst.Holds s y) (hab : alpha ≠ 0 ∨ beta = 0 ∨ beta = 1) :
    Computes (addAsync alpha src beta dst) s dst (fun I => alpha * x I + beta * y I) := by
  have := C11_add_bits_partial hs hd hlike alpha beta x y hx
    (by
      rintro (h | h)
      · exact hy (by simpa using h)
      · exact hy (by rw [eqb_real] at h; rw [h]; exact one_ne_zero))
    (by
      rcases hab with h | h | h
      · exact .inl (by simpa using h)
      · exact .inr (.inl (by simpa using h))
      · exact .inr (.inr (by simpa using h)))
  convert this using 2 with I
  by_cases h0 : beta = 0
  · subst h0
    have : ¬ (0 : ℝ) = 1 := zero_ne_one
    by_cases h : alpha = 0
    · subst h
      simp
    · simp [h]
  · by_cases h1 : alpha = 0
    · have : beta = 1 := by tauto
      subst this h1
      simp only [eqb_real, Bool.and_eq_true]
      rw [if_pos ⟨trivial, trivial⟩]
      ring
    · have e1 : FP.eqb alpha 0 = false := by simpa using h1
      have e2 : FP.eqb beta 0 = false := by simpa using h0
      rw [e1, e2]
      rfl

/-- `hypot` over the reals: `dst = sqrt((alpha*src)^2 + (beta*dst)^2)`, except for `alpha = 0`, `beta = 1` and negative `dst`; the missing
case is false (`C11_hypot_refuted`). -/
theorem C11_hypot_partial {src dst : Tensor} {s : Store ℝ} (hs : src.Ready s) (hd : dst.Ready s) (hlike : src.Like dst) (alpha beta : ℝ)
    (x y : List Nat → ℝ) (hx : src.Holds s x) (hy : beta ≠ 0 → dst.Holds s y)
    (hab : alpha = 0 → beta = 1 → ∀ I, 0 ≤ y I) :
    Computes (hypotAsync alpha src beta dst) s dst (fun I => Real.sqrt ((alpha * x I) ^ 2 + (beta * y I) ^ 2)) := by
  have := C11_hypot_bits hs hd hlike alpha beta x y hx
    (by
      rintro (h | h)
      · exact hy (by simpa using h)
      · exact hy (by rw [eqb_real] at h; rw [h]; exact one_ne_zero))
  convert this using 2 with I
  by_cases ha : alpha = 0
  · subst ha
    have e1 : FP.eqb (0 : ℝ) 0 = true := by simp
    by_cases hb : beta = 1
    · subst hb
      have e2 : FP.eqb (1 : ℝ) 1 = true := by simp
      simp only [e1, e2, Bool.and_self, if_true]
      rw [zero_mul, zero_pow two_ne_zero, zero_add, one_mul, Real.sqrt_sq (hab rfl rfl I)]
    · have e2 : FP.eqb beta (1 : ℝ) = false := by simp only [eqb_real_false]; exact hb
      by_cases hb0 : beta = 0
      · subst hb0
        simp only [e1, e2, Bool.and_false, if_true, Bool.false_eq_true, if_false]
        simp
      · have e3 : FP.eqb beta (0 : ℝ) = false := by simp only [eqb_real_false]; exact hb0
        simp only [e1, e2, e3, Bool.and_false, if_true, Bool.false_eq_true, if_false]
        rw [zero_mul, zero_pow two_ne_zero, zero_add, Real.sqrt_sq_eq_abs]
        rfl
  · have e1 : FP.eqb alpha (0 : ℝ) = false := by simp only [eqb_real_false]; exact ha
    by_cases hb0 : beta = 0
    · subst hb0
      have e2 : FP.eqb (0 : ℝ) 0 = true := by simp
      simp only [e1, e2, Bool.false_and, if_true, Bool.false_eq_true, if_false]
      rw [zero_mul, zero_pow two_ne_zero, add_zero, Real.sqrt_sq_eq_abs]
      rfl
    · have e3 : FP.eqb beta (0 : ℝ) = false := by simp only [eqb_real_false]; exact hb0
      simp only [e1, e3, Bool.false_and, Bool.false_eq_true, if_false]
      rfl

end real

/-! ### Rejection of ill-shaped arguments -/
section reject
variable {α : Type} [FP α]

/-- Operations on two tensors reject operands of different shapes or tilings by an exception, before any task is submitted. -/
theorem C11_rejects2 {src dst : Tensor} (hs : src.WF) (hd : dst.WF) (h : src.shape ≠ dst.shape ∨ src.basetile ≠ dst.basetile) (alpha beta : α) :
    Throws (scalAsync alpha src dst) ∧ Throws (addAsync alpha src beta dst) ∧ Throws (hypotAsync alpha src beta dst) ∧
    Throws (sqrtAsync (α := α) src dst) ∧ Throws (gelutanhAsync (α := α) src dst) ∧ Throws (prodAsync (α := α) src dst) ∧
    Throws (maximumAsync (α := α) src dst) ∧ Throws (reluForwardAsync (α := α) src dst) := by
  have h1 := checkSame_throws hd hs h
  have h2 := checkSame'_throws h
  exact ⟨h1.bind, h1.bind, h1.bind, h1.bind, h1.bind, h2.bind, h2.bind, h2.bind⟩

/-- `axpy` rejects operands of different shapes or tilings, and a factor which is not a scalar. -/
theorem C11_rejects_axpy {al src dst : Tensor} (h : al.shape ≠ [] ∨ src.shape ≠ dst.shape ∨ src.basetile ≠ dst.basetile) :
    Throws (axpyAsync (α := α) al src dst) := by
  simp only [axpyAsync, throws_throwIf_bind, List.length_eq_zero_iff, ne_eq]
  tauto

/-- The backward operations reject operands of different shapes or tilings. -/
theorem C11_rejects3 {x dy dx : Tensor}
    (h : x.shape ≠ dy.shape ∨ x.basetile ≠ dy.basetile ∨ x.shape ≠ dx.shape ∨ x.basetile ≠ dx.basetile) :
    Throws (reluBackwardAsync (α := α) x dy dx) ∧ Throws (geluBackwardAsync (α := α) x dy dx) ∧
    Throws (gelutanhBackwardAsync (α := α) x dy dx) := by
  have key : ∀ k : M (List (Task1 α)), Throws (checkSame' x dy >>= fun _ => checkSame' x dx >>= fun _ => k) := by
    intro k
    by_cases h1 : x.shape ≠ dy.shape ∨ x.basetile ≠ dy.basetile
    · exact (checkSame'_throws h1).bind
    · simp only [not_or, ne_eq, Decidable.not_not] at h1
      rw [checkSame'_ok h1.1 h1.2]
      exact (checkSame'_throws (by tauto)).bind
  exact ⟨key _, key _, key _⟩

end reject

/-! ### Refuted parts of the property -/
section refuted

/-- Two vectors of three elements, each in one tile: the source holds zeros, the destination ones. -/
def addWitness : Store ℝ := fun h => ⟨3, fun _ => if h.1 = 0 then some 0 else some 1⟩

/-- `add` with `alpha = 0` and `beta = 2` does not compute `2*dst`: `starpu::add::submit` exchanges the arguments of
`scal_inplace::submit` and the first two elements are multiplied by three instead. -/
theorem C11_add_refuted :
    let src : Tensor := ⟨0, [3], [3]⟩
    let dst : Tensor := ⟨1, [3], [3]⟩
    src.Ready addWitness ∧ dst.Ready addWitness ∧ src.Like dst ∧ src.Holds addWitness (fun _ => 0) ∧ dst.Holds addWitness (fun _ => 1) ∧
    Computes (addAsync 0 src 2 dst) addWitness dst (fun I => if I = [2] then 1 else 3) ∧
    ¬ Computes (addAsync 0 src 2 dst) addWitness dst (fun I => 0 * 0 + 2 * 1) := by
  intro src dst
  have hA : ∀ T : Tensor, T.shape = [3] → T.basetile = [3] → T.Ready addWitness := by
    rintro ⟨i, sh, bt⟩ h1 h2
    simp only at h1 h2
    subst h1 h2
    refine ⟨by simp [Tensor.WF], ?_⟩
    intro j hj
    have : j = 0 := by simpa [Tensor.ntiles, Tensor.grid] using hj
    subst this
    simp [addWitness, Tensor.tshapeL, Tensor.tshape, Tensor.tindex, Tensor.grid]
  have hs := hA src rfl rfl
  have hd := hA dst rfl rfl
  have hC : Computes (addAsync 0 src 2 dst) addWitness dst (fun I => if I = [2] then 1 else 3) := by
    have e2 : FP.eqb (2 : ℝ) 0 = false := by simp
    have e3 : FP.eqb (2 : ℝ) 1 = false := by simp
    have e4 : FP.eqb (0 : ℝ) 0 = true := by simp
    simp only [addAsync, checkSame_ok (show src.shape = dst.shape from rfl) (show src.basetile = dst.basetile from rfl), M.bind_ok, e3,
      Bool.and_false, Bool.false_eq_true, if_false, submitAdd, e2, e4, if_true]
    have e5 : (FP.toIndex (2 : ℝ)).toNat = 2 := by simp [FP.toIndex, realTrunc]
    have e6 : (FP.ofIndex (3 : Int) : ℝ) = 3 := by simp
    have hn : dst.ntiles = 1 := by decide
    have hne : dst.tnelems 0 = 3 := by decide
    refine ⟨_, ?_, loop1_ok rfl rfl, ?_, ?_, ?_, ?_⟩
    · exact fun h => if h = (1, 0) then ⟨3, fun j => if j < 2 then some 3 else some 1⟩ else addWitness h
    · simp only [hn, List.range_one, List.flatMap_cons, List.flatMap_nil, List.append_nil, hne, runAll1, List.map_cons, List.map_nil, runAll]
      rw [Task1.exec_ok (b' := ⟨3, fun j => if j < 2 then some 3 else some 1⟩)]
      · simp only [M.bind_ok, submitScalInplace, task0]
        congr 1
      · simp [submitScalInplace, task0]
      · simp only [submitScalInplace, task0, Task1.inp, List.map_nil, reduceCtorEq, if_false, scalInplaceKernel, e5]
        have := forN_put (n := 2) (b := (⟨3, fun _ => some 1⟩ : Buf ℝ)) (f := fun i data => do
          let x ← data.rd i
          data.wr i (FP.ofIndex (3 : Int) * x)) (fun _ => 3) (by
            intro i hi d h1 h2
            simp only at h1 h2
            rw [Buf.rd_ok (by omega) h2, M.bind_ok, Buf.wr_put (by omega), e6]
            congr 2
            exact mul_one _)
        simpa [addWitness, dst] using this
    · intro I hI
      simp only [dst] at hI
      match I, hI with
      | [i], hI =>
        have hi : i < 3 := by simpa using hI
        have : i / 3 = 0 := by omega
        have hm : i % 3 = i := by omega
        simp only [Tensor.get, Tensor.hOf, Tensor.oOf, dst, Tensor.grid, gridOf_cons, gridOf_nil, tileIdx_cons, tileIdx_nil, lin_cons, lin_nil,
          Tensor.tshape, tileShape_cons, tileShape_nil, locIdx_cons, locIdx_nil, this, hm]
        by_cases h2 : i = 2
        · subst h2; simp
        · have : i < 2 := by omega
          simp [h2]; omega
    · intro h hh
      have : h ≠ (1, 0) := by rintro rfl; simp [dst] at hh
      simp [this]
    · refine ⟨hd.1, ?_⟩
      intro j hj
      rw [hn] at hj
      have : j = 0 := by omega
      subst this
      decide
  refine ⟨hs, hd, by simp [Tensor.Like, src, dst], ?_, ?_, hC, ?_⟩
  · intro I _; simp [Tensor.get, Tensor.hOf, addWitness, src]
  · intro I _; simp [Tensor.get, Tensor.hOf, addWitness, dst]
  · intro hC'
    obtain ⟨t, s', a, b, c, -⟩ := hC
    obtain ⟨t2, s2, a2, b2, c2, -⟩ := hC'
    rw [a] at a2
    cases a2
    rw [b] at b2
    cases b2
    have h1 := c [2] (by decide)
    rw [c2 [2] (by decide)] at h1
    norm_num at h1

/-- `hypot` with `alpha = 0`, `beta = 1` returns early and leaves negative elements of `dst` as they are. -/
theorem C11_hypot_refuted : ∃ (src dst : Tensor) (s : Store ℝ) (x y : List Nat → ℝ), src.Ready s ∧ dst.Ready s ∧ src.Like dst ∧ src.Holds s x ∧
    dst.Holds s y ∧ ¬ Computes (hypotAsync 0 src 1 dst) s dst (fun I => Real.sqrt ((0 * x I) ^ 2 + (1 * y I) ^ 2)) := by
  let s : Store ℝ := fun _ => ⟨1, fun _ => some (-1)⟩
  have hA : ∀ T : Tensor, T.shape = [1] → T.basetile = [1] → T.Ready s := by
    rintro ⟨i, sh, bt⟩ h1 h2
    simp only at h1 h2
    subst h1 h2
    refine ⟨by simp [Tensor.WF], ?_⟩
    intro j hj
    have : j = 0 := by simpa [Tensor.ntiles, Tensor.grid] using hj
    subst this
    simp [s, Tensor.tshapeL, Tensor.tshape, Tensor.tindex, Tensor.grid]
  refine ⟨⟨0, [1], [1]⟩, ⟨1, [1], [1]⟩, s, fun _ => -1, fun _ => -1, hA _ rfl rfl, hA _ rfl rfl, by simp [Tensor.Like], ?_, ?_, ?_⟩
  · intro I _; rfl
  · intro I _; rfl
  · rintro ⟨t, s', a, b, c, -⟩
    have e3 : FP.eqb (1 : ℝ) 1 = true := by simp
    have e4 : FP.eqb (0 : ℝ) 0 = true := by simp
    have hc : checkSame ⟨1, [1], [1]⟩ ⟨0, [1], [1]⟩ = .ok () := checkSame_ok rfl rfl
    simp only [hypotAsync, hc, M.bind_ok, e3, e4, Bool.and_self, if_true] at a
    cases a
    have : s' = s := by
      have : runAll1 ([] : List (Task1 ℝ)) s = .ok s := rfl
      rw [this] at b
      cases b; rfl
    subst this
    have := c [0] (by decide)
    simp only [Tensor.get, s, Option.some.injEq] at this
    have h2 : (0:ℝ) ≤ Real.sqrt ((0 * -1) ^ 2 + (1 * -1) ^ 2) := Real.sqrt_nonneg _
    linarith

/-- `addcdiv` accepts operands which are cut into different tiles; the tasks then access memory outside of the tiles. -/
theorem C11_addcdiv_tiling_unchecked : ∃ (nom denom src : Tensor) (s : Store ℝ) (tasks : List (Task1 ℝ)),
    nom.Ready s ∧ denom.Ready s ∧ src.Ready s ∧ nom.shape = src.shape ∧ denom.shape = src.shape ∧ nom.basetile ≠ src.basetile ∧
    nom.Defined s ∧ denom.Defined s ∧ src.Defined s ∧ addcdivAsync 1 1 nom denom src = .ok tasks ∧ IsUB (runAll1 tasks s) := by
  let s : Store ℝ := fun h => ⟨if h.1 = 0 then 1 else 2, fun _ => some 1⟩
  refine ⟨⟨0, [2], [1]⟩, ⟨1, [2], [2]⟩, ⟨2, [2], [2]⟩, s, [submitAddcdiv 1 1 2 (0, 0) (1, 0) (2, 0)], ?_, ?_, ?_, rfl, rfl, by decide,
    fun _ _ => ⟨1, rfl⟩, fun _ _ => ⟨1, rfl⟩, fun _ _ => ⟨1, rfl⟩, ?_, ?_⟩
  · refine ⟨by decide, ?_⟩
    intro i hi
    have hi : i < 2 := hi
    rcases (show i = 0 ∨ i = 1 by omega) with rfl | rfl <;> decide
  · refine ⟨by decide, ?_⟩
    intro i hi
    have : i = 0 := by have : i < 1 := hi; omega
    subst this; decide
  · refine ⟨by decide, ?_⟩
    intro i hi
    have : i = 0 := by have : i < 1 := hi; omega
    subst this; decide
  · rfl
  · refine ⟨"read out of bounds", ?_⟩
    simp [runAll1, runAll, Task1.toTask, Task.exec, Task.outs, submitAddcdiv, task2, addcdivKernel, forN, Store.view, Buf.rd, Buf.wr, s]

end refuted

/-- The hypotheses of the theorems are met by a `5×7` tensor cut into `2×3` tiles. -/
example : ∃ (src dst : Tensor) (s : Store ℝ) (x y : List Nat → ℝ), src.ntiles = 9 ∧ src.Ready s ∧ dst.Ready s ∧ src.Like dst ∧
    src.Holds s x ∧ dst.Holds s y := by
  refine ⟨⟨0, [5,7], [2,3]⟩, ⟨1, [5,7], [2,3]⟩, fun h => ⟨((⟨1, [5,7], [2,3]⟩ : Tensor).tshapeL h.2).prod, fun _ => some 7⟩,
    fun _ => 7, fun _ => 7, by decide, ⟨by decide, fun i _ => rfl⟩, ⟨by decide, fun i _ => rfl⟩, by simp [Tensor.Like], fun _ _ => rfl, fun _ _ => rfl⟩

end NNTile
