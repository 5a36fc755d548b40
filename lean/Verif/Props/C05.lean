import Verif.Props.C01
/-!
# C05 — block-cyclic distribution

The property as stated ("malformed arguments are rejected rather than causing undefined behaviour, every rank lies in
`[0,max_rank)`") is false of the code: see the three refutations. The theorem `C05_block_cyclic_partial` proves the rest for
positive node grids of non-scalar tensors.
-/
namespace NNTile

/-- Refutation: a zero-dimensional tensor grid makes `block_cyclic` read `index[-1]`. -/
theorem C05_scalar_grid_ub : IsUB (block_cyclic [] [] 0 1) := ⟨_, rfl⟩

/-- Refutation: a zero entry of the node grid is not rejected but divides by zero. -/
theorem C05_zero_node_grid_ub : IsUB (block_cyclic [4, 4] [0, 2] 0 4) := ⟨_, rfl⟩

/-- Refutation: a negative entry of the node grid is not rejected and yields a negative rank. -/
theorem C05_negative_node_grid_rank : block_cyclic [1, 2] [-3, 2] 0 4 = .ok [0, -3] := rfl

/-- Every scalar tensor grid reaches undefined behaviour (not only the example above). -/
theorem C05_scalar_always_ub (st mx : Int) (h : 0 ≤ st) (h' : st < mx) : IsUB (block_cyclic [] [] st mx) := by
  refine ⟨"index[-1]", ?_⟩
  simp only [block_cyclic, ne_eq, not_true, if_false]
  rw [if_neg (by omega)]
  rfl

/-- Mismatching dimensions, bad ranks and non-positive tensor grids are rejected with an exception. -/
theorem C05_rejects (grid mpi : List Int) (st mx : Int)
    (h : grid.length ≠ mpi.length ∨ st < 0 ∨ mx ≤ st ∨ ∃ g ∈ grid, g ≤ 0) : Throws (block_cyclic grid mpi st mx) := by
  simp only [block_cyclic]
  split
  · exact ⟨_, rfl⟩
  · split
    · exact ⟨_, rfl⟩
    · rename_i h1 h2
      have : ∃ g ∈ grid, g ≤ 0 := by
        rcases h with h | h | h | h
        · exact absurd h h1
        · omega
        · omega
        · exact h
      obtain ⟨g, hg, hle⟩ := this
      rw [make_throws (fun h' => by have := h' g hg; omega)]
      exact ⟨_, rfl⟩

/-- Two tiles occupy the same cell of the node grid. -/
def SameCell (mpi i j : List Int) : Prop :=
  List.zipWith (fun i g => i % g) i mpi = List.zipWith (fun i g => i % g) j mpi

theorem zipWith_mod_nat (I G : List Nat) : List.zipWith (fun (i g : Int) => i % g) (toInts I) (toInts G) = toInts (locIdx G I) := by
  induction I generalizing G with
  | nil => cases G <;> simp
  | cons i I ih => cases G with
    | nil => simp
    | cons g G => simp [ih]

/-- For a non-scalar tensor grid and a positive node grid: no exception and no undefined behaviour, one rank per tile, every rank is
in `[0, max_rank)`, equal cells of the node grid get equal ranks, the first tile gets `start_rank`, and `start_rank` shifts all ranks cyclically.

Missing with respect to the full property: scalar grids and non-positive node grids, which the code does not reject. -/
theorem C05_block_cyclic_partial {grid mpi : List Int} {st mx : Int} (hne : grid ≠ []) (hl : grid.length = mpi.length)
    (hg : ∀ g ∈ grid, 0 < g) (hm : ∀ g ∈ mpi, 0 < g) (hst : 0 ≤ st) (hmx : st < mx) :
    ∃ ranks tt, block_cyclic grid mpi st mx = .ok ranks ∧ TileTraits.make grid = .ok tt ∧
      (ranks.length : Int) = tt.nelems ∧ (∀ r ∈ ranks, 0 ≤ r ∧ r < mx) ∧ ranks[0]? = some st ∧
      (∀ i j : Nat, i < ranks.length → j < ranks.length → ∀ I J, tt.linear_to_index i = .ok I → tt.linear_to_index j = .ok J →
        SameCell mpi I J → ranks[i]? = ranks[j]?) ∧
      (∃ base, block_cyclic grid mpi 0 mx = .ok base ∧ ranks = base.map (fun r => (r + st) % mx)) := by
  obtain ⟨D, rfl, hD⟩ := exists_nat_of_pos hg
  obtain ⟨G, rfl, hG⟩ := exists_nat_of_pos hm
  obtain ⟨s, rfl⟩ := Int.eq_ofNat_of_zero_le hst
  obtain ⟨m, rfl⟩ := Int.eq_ofNat_of_zero_le (show 0 ≤ mx by omega)
  have hlen : G.length = D.length := by simpa using hl.symm
  have hne' : D ≠ [] := by rintro rfl; exact hne rfl
  have hsm : s < m := by omega
  have key : ∀ s : Nat, s < m → block_cyclic (toInts D) (toInts G) s m
      = .ok ((List.range D.prod).map fun k => (((lin G (locIdx G (unlin D k)) + s) % m : Nat) : Int)) := by
    intro s hs
    simp only [block_cyclic]
    rw [if_neg (by simp [hlen]), if_neg (by omega), make_nat hD, M.bind_ok]
    show blockCyclicLoop (natTraits D) (toInts G) s m (Int.toNat (D.prod : Int)) = _
    rw [Int.toNat_natCast, blockCyclicLoop_nat hD hG hlen hne' s m _ le_rfl]
  refine ⟨_, _, key s hsm, make_nat hD, by simp, ?_, ?_, ?_, ?_⟩
  · intro r hr
    simp only [List.mem_map, List.mem_range] at hr
    obtain ⟨k, hk, rfl⟩ := hr
    have := Nat.mod_lt (lin G (locIdx G (unlin D k)) + s) (show 0 < m by omega)
    omega
  · have hD0 := hD.prod
    have hz : ∀ (D G : List Nat), lin G (locIdx G (unlin D 0)) = 0 := by
      intro D
      induction D with
      | nil => intro G; cases G <;> simp
      | cons d D ih => intro G; cases G with
        | nil => simp
        | cons g G => simp [ih]
    simp only [List.getElem?_map, List.getElem?_range hD0, Option.map_some, hz, Nat.zero_add, Nat.mod_eq_of_lt hsm]
  · intro i j hi hj I J hI hJ hc
    simp only [List.length_map, List.length_range] at hi hj
    rw [l2i_nat hD hi] at hI
    rw [l2i_nat hD hj] at hJ
    cases hI; cases hJ
    simp only [SameCell, zipWith_mod_nat, toInts_inj] at hc
    simp [hi, hj, hc]
  · refine ⟨_, key 0 (by omega), ?_⟩
    rw [List.map_map]
    apply List.map_congr_left
    intro k _
    simp only [Function.comp_apply, Nat.add_zero]
    rw [← Int.natCast_add, ← Int.natCast_mod, Nat.mod_add_mod]

/-- Inside of one period, the rank of a tile is its column-major number in the node grid (shifted and wrapped). -/
theorem C05_rank_formula_partial {grid mpi : List Int} {st mx : Int} (hne : grid ≠ []) (hl : grid.length = mpi.length)
    (hg : ∀ g ∈ grid, 0 < g) (hm : ∀ g ∈ mpi, 0 < g) (hst : 0 ≤ st) (hmx : st < mx) {ranks : List Int} {tt : TileTraits}
    (hr : block_cyclic grid mpi st mx = .ok ranks) (htt : TileTraits.make grid = .ok tt) (k : Nat) (hk : k < ranks.length)
    (I : List Int) (hI : tt.linear_to_index k = .ok I) :
    ranks[k]? = some ((colMajor mpi (List.zipWith (fun i g => i % g) I mpi) + st) % mx) := by
  obtain ⟨D, rfl, hD⟩ := exists_nat_of_pos hg
  obtain ⟨G, rfl, hG⟩ := exists_nat_of_pos hm
  obtain ⟨s, rfl⟩ := Int.eq_ofNat_of_zero_le hst
  obtain ⟨m, rfl⟩ := Int.eq_ofNat_of_zero_le (show 0 ≤ mx by omega)
  have hlen : G.length = D.length := by simpa using hl.symm
  have hne' : D ≠ [] := by rintro rfl; exact hne rfl
  rw [make_nat hD] at htt; cases htt
  simp only [block_cyclic] at hr
  rw [if_neg (by simp [hlen]), if_neg (by omega), make_nat hD, M.bind_ok] at hr
  change blockCyclicLoop (natTraits D) (toInts G) s m (Int.toNat (D.prod : Int)) = _ at hr
  rw [Int.toNat_natCast, blockCyclicLoop_nat hD hG hlen hne' s m _ le_rfl] at hr
  cases hr
  simp only [List.length_map, List.length_range] at hk
  rw [l2i_nat hD hk] at hI
  cases hI
  have hin : ∀ (G I : List Nat), Pos G → I.length = G.length → InBox G (locIdx G I) := by
    intro G
    induction G with
    | nil => intro I _ h; cases I <;> simp_all
    | cons g G ih => intro I hG h; cases I with
      | nil => simp at h
      | cons i I => simp at hG h; simp [Nat.mod_lt _ hG.1, ih I hG.2 h]
  rw [zipWith_mod_nat, colMajor_nat _ _ (hin G _ hG (by simp [hlen]))]
  simp only [List.getElem?_map, List.getElem?_range hk, Option.map_some]
  push_cast
  rfl

/-- The hypotheses are satisfiable: a 4x3 grid over a 2x2 node grid, starting at rank 1 of 4. -/
example : block_cyclic [4,3] [2,2] 1 4 = .ok [1,2,1,2,3,0,3,0,1,2,1,2] := rfl

end NNTile
