import Verif.Model.Args
import Verif.Lib.Core
import Mathlib.Tactic.NormNum
import Mathlib.Tactic.Set
import Mathlib.Tactic.Conv
/-!
# C30: task arguments are decoded exactly as encoded
-/
namespace NNTile

@[simp] theorem leBytes_length (k n : Nat) : (leBytes k n).length = k := by
  induction k generalizing n with
  | zero => rfl
  | succ k ih => simp [leBytes, ih]

theorem leVal_leBytes (k n : Nat) : leVal (leBytes k n) = n % 256 ^ k := by
  induction k generalizing n with
  | zero => simp [leBytes, leVal, Nat.mod_one]
  | succ k ih =>
    have h : (UInt8.ofNat (n % 256)).toNat = n % 256 := by
      simp [UInt8.toNat_ofNat']
    rw [leBytes, leVal, ih, h, Nat.pow_succ, Nat.mul_comm (256 ^ k), Nat.mod_mul]

/-- The bytes `a` stand at offset `p` of the block. -/
def At (buf : Bytes) (p : Nat) (a : Bytes) : Prop := readBytes buf p a.length = .ok a

theorem at_append (x a y : Bytes) : At (x ++ a ++ y) x.length a := by
  simp only [At, readBytes]
  rw [if_pos (by simp)]
  simp

theorem At.of_eq {buf : Bytes} {p : Nat} {a : Bytes} (x y : Bytes) (h : buf = x ++ a ++ y) (hp : p = x.length) : At buf p a := by
  subst h hp; exact at_append x a y

private theorem unpackSingle_spec (rest : List Bytes) : ∀ (pre : Bytes) (n : Nat) (ptrs : List (Option Nat)), n = rest.length →
    (∀ a ∈ rest, a.length < 2 ^ 64) →
    ∃ res, unpackSingle (pre ++ rest.flatMap (fun a => leBytes 8 a.length ++ a)) pre.length n ptrs = .ok res ∧ res.length = ptrs.length ∧
      (∀ i (hi : i < rest.length), i < ptrs.length → ∃ p, res[i]? = some (some p) ∧
        At (pre ++ rest.flatMap (fun a => leBytes 8 a.length ++ a)) p rest[i]) ∧
      (∀ i, rest.length ≤ i → res[i]? = ptrs[i]?) := by
  induction rest with
  | nil =>
    intro pre n ptrs hn _
    subst hn
    refine ⟨ptrs, ?_, rfl, by simp, by simp⟩
    cases ptrs <;> simp [unpackSingle]
  | cons a rest ih =>
    intro pre n ptrs hn hsz
    cases ptrs with
    | nil => exact ⟨[], by simp [unpackSingle], rfl, by simp, by simp⟩
    | cons ptr ptrs =>
      have hbuf : pre ++ (a :: rest).flatMap (fun a => leBytes 8 a.length ++ a)
          = (pre ++ (leBytes 8 a.length ++ a)) ++ rest.flatMap (fun a => leBytes 8 a.length ++ a) := by simp
      obtain ⟨res, e1, e2, e3, e4⟩ := ih (pre ++ (leBytes 8 a.length ++ a)) rest.length ptrs rfl (fun b hb => hsz b (by simp [hb]))
      rw [← hbuf] at e1 e3
      have h8 : At (pre ++ (a :: rest).flatMap (fun a => leBytes 8 a.length ++ a)) pre.length (leBytes 8 a.length) :=
        .of_eq pre (a ++ rest.flatMap (fun a => leBytes 8 a.length ++ a)) (by simp) rfl
      have hlen : leVal (leBytes 8 a.length) = a.length := by
        rw [leVal_leBytes]
        exact Nat.mod_eq_of_lt (hsz a (by simp))
      refine ⟨some (pre.length + 8) :: res, ?_, by simp [e2], ?_, ?_⟩
      · rw [unpackSingle, if_neg (by simp [hn]; omega)]
        rw [At, leBytes_length] at h8
        rw [h8, M.bind_ok]
        simp only [hlen]
        have : ((n : Int) - 1) = (rest.length : Int) := by simp [hn]
        rw [this]
        have h' : pre.length + 8 + a.length = (pre ++ (leBytes 8 a.length ++ a)).length := by simp; omega
        rw [h', e1, M.bind_ok]
      · intro i hi hp
        cases i with
        | zero => exact ⟨_, rfl, .of_eq (pre ++ leBytes 8 a.length) (rest.flatMap (fun a => leBytes 8 a.length ++ a)) (by simp) (by simp)⟩
        | succ i => simpa using e3 i (by simpa using hi) (by simpa using hp)
      · intro i hi
        cases i with
        | zero => simp at hi
        | succ i => simpa using e4 i (by simpa using hi)

/-- **Main theorem.** Decoding a packed block with any number of pointers never reads outside of the block; pointer number `i` then points to
exactly the bytes of argument number `i`, and pointers beyond the number of arguments keep their values. -/
theorem C30_roundtrip (args : List Bytes) (ptrs : List (Option Nat)) (hn : args.length < 2 ^ 31) (hsz : ∀ a ∈ args, a.length < 2 ^ 64) :
    ∃ res, unpackArgs (packArgs args) ptrs = .ok res ∧ res.length = ptrs.length ∧
      (∀ i (hi : i < args.length), i < ptrs.length → ∃ p, res[i]? = some (some p) ∧ readBytes (packArgs args) p args[i].length = .ok args[i]) ∧
      (∀ i, args.length ≤ i → res[i]? = ptrs[i]?) := by
  have h4 : readBytes (packArgs args) 0 4 = .ok (leBytes 4 args.length) := by
    have := At.of_eq (buf := packArgs args) (p := 0) (a := leBytes 4 args.length) [] (args.flatMap (fun a => leBytes 8 a.length ++ a)) (by simp [packArgs]) rfl
    rwa [At, leBytes_length] at this
  have hv : toSigned 32 (leVal (leBytes 4 args.length)) = args.length := by
    rw [leVal_leBytes, Nat.mod_eq_of_lt (by have : (256:Nat)^4 = 2^32 := by norm_num
                                            omega), toSigned, if_pos (by simpa using hn)]
  rw [unpackArgs, h4, M.bind_ok]
  simp only [hv]
  by_cases h0 : args.length = 0
  · rw [if_neg (by omega)]
    exact ⟨ptrs, rfl, rfl, fun i hi => by omega, fun _ _ => rfl⟩
  · rw [if_pos (by omega)]
    obtain ⟨res, e1, e2, e3, e4⟩ := unpackSingle_spec args (leBytes 4 args.length) args.length ptrs rfl hsz
    rw [leBytes_length] at e1
    exact ⟨res, e1, e2, e3, e4⟩

/-! ### The arguments of `subcopy` and `randn` -/

theorem indexBytes_length (i : Int) : (indexBytes i).length = 8 := leBytes_length _ _

theorem signed_index {i : Int} (h : -2 ^ 63 ≤ i) (h' : i < 2 ^ 63) : toSigned 64 (leVal (indexBytes i)) = i := by
  rw [indexBytes, leVal_leBytes]
  have h256 : (256:Nat) ^ 8 = 2 ^ 64 := by norm_num
  have hlt : (i % 2 ^ 64).toNat < 2 ^ 64 := by omega
  rw [h256, Nat.mod_eq_of_lt hlt, toSigned]
  split <;> omega

theorem flat_length (v : List Int) : (v.flatMap indexBytes).length = 8 * v.length := by
  induction v with
  | nil => rfl
  | cons a v ih => simp only [List.flatMap_cons, List.length_append, ih, indexBytes_length, List.length_cons]; omega

/-- Values that an `Index` can have. -/
def IsIndex (i : Int) : Prop := -2 ^ 63 ≤ i ∧ i < 2 ^ 63

private theorem derefIndex_at {buf : Bytes} {p : Nat} {i : Int} (h : At buf p (indexBytes i)) (hi : IsIndex i) : derefIndex buf (some p) 0 = .ok i := by
  rw [At, indexBytes_length] at h
  rw [derefIndex]
  simp only [Nat.mul_zero, Nat.add_zero, h, M.bind_ok, signed_index hi.1 hi.2]

private theorem derefULL_at {buf : Bytes} {p i : Nat} (h : At buf p (leBytes 8 i)) (hi : i < 2 ^ 64) : derefULL buf (some p) = .ok i := by
  rw [At, leBytes_length] at h
  rw [derefULL]
  simp only [h, M.bind_ok, leVal_leBytes]
  rw [Nat.mod_eq_of_lt (by norm_num; omega)]

private theorem At.sub {buf x a y : Bytes} {p : Nat} (h : At buf p (x ++ a ++ y)) : At buf (p + x.length) a := by
  simp only [At, readBytes] at h ⊢
  split at h
  · rename_i hle
    rw [if_pos (by simp at hle; omega)]
    injection h with h
    congr 1
    have hb : (buf.drop p) = x ++ a ++ y ++ (buf.drop p).drop (x ++ a ++ y).length := by
      conv_lhs => rw [← List.take_append_drop (x ++ a ++ y).length (buf.drop p), h]
    rw [← List.drop_drop, hb]
    simp
  · simp at h

private theorem derefVec_at {buf : Bytes} {p : Nat} (v : List Int) (h : At buf p (v.flatMap indexBytes)) (hv : ∀ x ∈ v, IsIndex x) :
    derefVec buf (some p) v.length = .ok v := by
  have key : ∀ k, k ≤ v.length → derefVec buf (some p) k = .ok (v.take k) := by
    intro k
    induction k with
    | zero => intro _; simp [derefVec]
    | succ k ih =>
      intro hk
      have hk' : k < v.length := by omega
      have hs : v.flatMap indexBytes = (v.take k).flatMap indexBytes ++ indexBytes v[k] ++ (v.drop (k + 1)).flatMap indexBytes := by
        have e : v = v.take k ++ v[k] :: v.drop (k + 1) := by rw [← List.drop_eq_getElem_cons hk', List.take_append_drop]
        have := congrArg (List.flatMap indexBytes) e
        rw [List.flatMap_append, List.flatMap_cons, ← List.append_assoc] at this
        exact this
      rw [hs] at h
      have ha := h.sub
      have hl : ((v.take k).flatMap indexBytes).length = 8 * k := by rw [flat_length]; simp; omega
      rw [hl] at ha
      rw [derefVec, ih (by omega), M.bind_ok, derefIndex]
      rw [At, indexBytes_length] at ha
      simp only [ha, M.bind_ok, signed_index (hv _ (List.getElem_mem hk')).1 (hv _ (List.getElem_mem hk')).2]
      rw [List.take_succ_eq_append_getElem hk']
  have := key v.length le_rfl
  rwa [List.take_length] at this

private theorem vecBytes_ok {n : Nat} {v : List Int} (h : v.length = n) : vecBytes n v = .ok (v.flatMap indexBytes) := by
  rw [vecBytes, if_pos (by simp [h]), List.take_of_length_le (by simp [h])]

/-- The kernel `subcopy` gets exactly the arguments that were submitted, for every number of dimensions. -/
theorem C30_subcopy (n : Nat) (hn : n < 2 ^ 60) (src_start src_stride dst_start dst_stride copy_shape : List Int)
    (h1 : src_start.length = n) (h2 : src_stride.length = n) (h3 : dst_start.length = n) (h4 : dst_stride.length = n) (h5 : copy_shape.length = n)
    (hi : ∀ x ∈ src_start ++ src_stride ++ dst_start ++ dst_stride ++ copy_shape, IsIndex x) :
    (subcopyPack n src_start src_stride dst_start dst_stride copy_shape >>= subcopyUnpack)
      = .ok ⟨n, src_start, src_stride, copy_shape, dst_start, dst_stride⟩ := by
  simp only [subcopyPack, vecBytes_ok h1, vecBytes_ok h2, vecBytes_ok h3, vecBytes_ok h4, vecBytes_ok h5, M.bind_ok]
  have hni : IsIndex n := ⟨by omega, by omega⟩
  set args := [indexBytes n, src_start.flatMap indexBytes, src_stride.flatMap indexBytes, copy_shape.flatMap indexBytes,
    dst_start.flatMap indexBytes, dst_stride.flatMap indexBytes] with hargs
  obtain ⟨res, e1, e2, e3, -⟩ := C30_roundtrip args [none, none, none, none, none, none] (by simp [hargs]) (by
    intro a ha
    simp only [hargs, List.mem_cons, List.not_mem_nil, or_false] at ha
    rcases ha with rfl | rfl | rfl | rfl | rfl | rfl
    · rw [indexBytes_length]; norm_num
    all_goals rw [flat_length]; omega)
  obtain ⟨p0, q0, a0⟩ := e3 0 (by simp [hargs]) (by simp)
  obtain ⟨p1, q1, a1⟩ := e3 1 (by simp [hargs]) (by simp)
  obtain ⟨p2, q2, a2⟩ := e3 2 (by simp [hargs]) (by simp)
  obtain ⟨p3, q3, a3⟩ := e3 3 (by simp [hargs]) (by simp)
  obtain ⟨p4, q4, a4⟩ := e3 4 (by simp [hargs]) (by simp)
  obtain ⟨p5, q5, a5⟩ := e3 5 (by simp [hargs]) (by simp)
  have hres : res = [some p0, some p1, some p2, some p3, some p4, some p5] := by
    match res, e2 with
    | [r0, r1, r2, r3, r4, r5], _ => simp at q0 q1 q2 q3 q4 q5; simp [*]
  subst hres
  have mem : ∀ {v : List Int}, (∀ x ∈ v, x ∈ src_start ++ src_stride ++ dst_start ++ dst_stride ++ copy_shape) → ∀ x ∈ v, IsIndex x :=
    fun hsub x hx => hi x (hsub x hx)
  have d0 : derefIndex (packArgs args) (some p0) 0 = .ok n := derefIndex_at a0 hni
  have d1 : derefVec (packArgs args) (some p1) n = .ok src_start := by
    have := derefVec_at src_start a1 (mem (by simp +contextual)); rwa [h1] at this
  have d2 : derefVec (packArgs args) (some p2) n = .ok src_stride := by
    have := derefVec_at src_stride a2 (mem (by simp +contextual)); rwa [h2] at this
  have d3 : derefVec (packArgs args) (some p3) n = .ok copy_shape := by
    have := derefVec_at copy_shape a3 (mem (by simp +contextual)); rwa [h5] at this
  have d4 : derefVec (packArgs args) (some p4) n = .ok dst_start := by
    have := derefVec_at dst_start a4 (mem (by simp +contextual)); rwa [h3] at this
  have d5 : derefVec (packArgs args) (some p5) n = .ok dst_stride := by
    have := derefVec_at dst_stride a5 (mem (by simp +contextual)); rwa [h4] at this
  simp only [subcopyUnpack, e1, M.bind_ok, d0, Int.toNat_natCast, d1, d2, d3, d4, d5]

/-- The kernel `randn` gets exactly the arguments that were submitted; `mean` and `stddev` as `sizeof(T)` bytes. -/
theorem C30_randn (size n : Nat) (hs : size < 2 ^ 64) (hn : n < 2 ^ 60) (nelems : Int) (seed : Nat) (hne : IsIndex nelems) (hse : seed < 2 ^ 64)
    (mean stddev : Bytes) (hm : mean.length = size) (hsd : stddev.length = size)
    (start shape stride underlying_shape : List Int)
    (h1 : start.length = n) (h2 : shape.length = n) (h3 : stride.length = n) (h4 : underlying_shape.length = n)
    (hi : ∀ x ∈ start ++ shape ++ stride ++ underlying_shape, IsIndex x) :
    (randnPack n nelems seed mean stddev start shape stride underlying_shape >>= randnUnpack size)
      = .ok ⟨n, nelems, seed, mean, stddev, start, shape, stride, underlying_shape⟩ := by
  simp only [randnPack, vecBytes_ok h1, vecBytes_ok h2, vecBytes_ok h3, vecBytes_ok h4, M.bind_ok]
  have hni : IsIndex n := ⟨by omega, by omega⟩
  set args := [indexBytes n, indexBytes nelems, leBytes 8 seed, mean, stddev, start.flatMap indexBytes, shape.flatMap indexBytes,
    stride.flatMap indexBytes, underlying_shape.flatMap indexBytes] with hargs
  obtain ⟨res, e1, e2, e3, -⟩ := C30_roundtrip args [none, none, none, none, none, none, none, none, none] (by simp [hargs]) (by
    intro a ha
    simp only [hargs, List.mem_cons, List.not_mem_nil, or_false] at ha
    rcases ha with rfl | rfl | rfl | rfl | rfl | rfl | rfl | rfl | rfl
    · rw [indexBytes_length]; norm_num
    · rw [indexBytes_length]; norm_num
    · rw [leBytes_length]; norm_num
    · rw [hm]; exact hs
    · rw [hsd]; exact hs
    all_goals rw [flat_length]; omega)
  obtain ⟨p0, q0, a0⟩ := e3 0 (by simp [hargs]) (by simp)
  obtain ⟨p1, q1, a1⟩ := e3 1 (by simp [hargs]) (by simp)
  obtain ⟨p2, q2, a2⟩ := e3 2 (by simp [hargs]) (by simp)
  obtain ⟨p3, q3, a3⟩ := e3 3 (by simp [hargs]) (by simp)
  obtain ⟨p4, q4, a4⟩ := e3 4 (by simp [hargs]) (by simp)
  obtain ⟨p5, q5, a5⟩ := e3 5 (by simp [hargs]) (by simp)
  obtain ⟨p6, q6, a6⟩ := e3 6 (by simp [hargs]) (by simp)
  obtain ⟨p7, q7, a7⟩ := e3 7 (by simp [hargs]) (by simp)
  obtain ⟨p8, q8, a8⟩ := e3 8 (by simp [hargs]) (by simp)
  have hres : res = [some p0, some p1, some p2, some p3, some p4, some p5, some p6, some p7, some p8] := by
    match res, e2 with
    | [r0, r1, r2, r3, r4, r5, r6, r7, r8], _ => simp at q0 q1 q2 q3 q4 q5 q6 q7 q8; simp [*]
  subst hres
  have mem : ∀ {v : List Int}, (∀ x ∈ v, x ∈ start ++ shape ++ stride ++ underlying_shape) → ∀ x ∈ v, IsIndex x :=
    fun hsub x hx => hi x (hsub x hx)
  have d0 : derefIndex (packArgs args) (some p0) 0 = .ok n := derefIndex_at a0 hni
  have d1 : derefIndex (packArgs args) (some p1) 0 = .ok nelems := derefIndex_at a1 hne
  have d2 : derefULL (packArgs args) (some p2) = .ok seed := derefULL_at a2 hse
  have d3 : derefBytes (packArgs args) (some p3) size = .ok mean := by rw [← hm]; exact a3
  have d4 : derefBytes (packArgs args) (some p4) size = .ok stddev := by rw [← hsd]; exact a4
  have d5 : derefVec (packArgs args) (some p5) n = .ok start := by
    have := derefVec_at start a5 (mem (by simp +contextual)); rwa [h1] at this
  have d6 : derefVec (packArgs args) (some p6) n = .ok shape := by
    have := derefVec_at shape a6 (mem (by simp +contextual)); rwa [h2] at this
  have d7 : derefVec (packArgs args) (some p7) n = .ok stride := by
    have := derefVec_at stride a7 (mem (by simp +contextual)); rwa [h3] at this
  have d8 : derefVec (packArgs args) (some p8) n = .ok underlying_shape := by
    have := derefVec_at underlying_shape a8 (mem (by simp +contextual)); rwa [h4] at this
  simp only [randnUnpack, e1, M.bind_ok, d0, Int.toNat_natCast, d1, d2, d3, d4, d5, d6, d7, d8]

/-- The same for scalars (`ndim = 0`). -/
theorem C30_randn_scalar (size : Nat) (hs : size < 2 ^ 64) (seed : Nat) (hse : seed < 2 ^ 64) (mean stddev : Bytes) (hm : mean.length = size)
    (hsd : stddev.length = size) : randn0Unpack size (randn0Pack seed mean stddev) = .ok (seed, mean, stddev) := by
  set args := [leBytes 8 seed, mean, stddev] with hargs
  obtain ⟨res, e1, e2, e3, -⟩ := C30_roundtrip args [none, none, none] (by simp [hargs]) (by
    intro a ha
    simp only [hargs, List.mem_cons, List.not_mem_nil, or_false] at ha
    rcases ha with rfl | rfl | rfl
    · rw [leBytes_length]; norm_num
    · rw [hm]; exact hs
    · rw [hsd]; exact hs)
  obtain ⟨p0, q0, a0⟩ := e3 0 (by simp [hargs]) (by simp)
  obtain ⟨p1, q1, a1⟩ := e3 1 (by simp [hargs]) (by simp)
  obtain ⟨p2, q2, a2⟩ := e3 2 (by simp [hargs]) (by simp)
  have hres : res = [some p0, some p1, some p2] := by
    match res, e2 with
    | [r0, r1, r2], _ => simp at q0 q1 q2; simp [*]
  subst hres
  have d0 : derefULL (packArgs args) (some p0) = .ok seed := derefULL_at a0 hse
  have d3 : derefBytes (packArgs args) (some p1) size = .ok mean := by rw [← hm]; exact a1
  have d4 : derefBytes (packArgs args) (some p2) size = .ok stddev := by rw [← hsd]; exact a2
  simp only [randn0Unpack, randn0Pack, ← hargs, e1, M.bind_ok, d0, d3, d4]

/-- A concrete block: three arguments of 2, 0 and 3 bytes, decoded with four pointers; the fourth stays uninitialised. -/
example : unpackArgs (packArgs [[7, 8], [], [1, 2, 3]]) [none, none, none, none] = .ok [some 12, some 22, some 30, none] := by decide

/-- The hypotheses of `C30_subcopy` are met, also with negative entries. -/
example : (subcopyPack 2 [0, 1] [1, 4] [2, 0] [1, 5] [3, -3] >>= subcopyUnpack) = .ok ⟨2, [0, 1], [1, 4], [3, -3], [2, 0], [1, 5]⟩ :=
  C30_subcopy 2 (by norm_num) _ _ _ _ _ rfl rfl rfl rfl rfl (by simp [IsIndex])

end NNTile
