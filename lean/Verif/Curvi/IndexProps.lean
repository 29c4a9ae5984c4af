import Verif.Curvi.IndexLemmas
import Mathlib.Data.List.Nodup
import Mathlib.Data.List.Flatten
/-!
# C16, C17: numbering of curvilinear grid nodes, conversion to an unstructured mesh

`g.node n m` is the visible node in row `n` and column `m`.
-/
namespace Verif.Curvi
variable {P : Type}

theorem flat_lt {N M n m : Nat} (hn : n < N) (hm : m < M) : n * M + m < N * M := by
  calc n * M + m < n * M + M := by omega
    _ = (n + 1) * M := by rw [Nat.add_mul]; omega
    _ ≤ N * M := Nat.mul_le_mul_right _ hn

theorem flat_div {M n m : Nat} (hm : m < M) : (n * M + m) / M = n := by
  rw [Nat.add_comm, Nat.add_mul_div_right _ _ (by omega), Nat.div_eq_of_lt hm, Nat.zero_add]

theorem flat_mod {M n m : Nat} (hm : m < M) : (n * M + m) % M = m := by
  rw [Nat.add_comm, Nat.add_mul_mod_self_right, Nat.mod_eq_of_lt hm]

/-- **C16.** Row and column to number and back. -/
theorem position_to_number_and_back (g : Grid P) (hs : g.numN * g.numM < 2 ^ 32) (n m : Nat)
    (hn : n < g.numN) (hm : m < g.numM) :
    ∃ i, nodeIndex g (n, m) = .ok i ∧ i < g.numN * g.numM ∧ nodeIndices g i = .ok (n, m) := by
  have hlt := flat_lt hn hm
  have h1 : n * g.numM ≤ g.numN * g.numM := Nat.mul_le_mul_right _ (by omega)
  have hN : g.numN ≤ g.numN * g.numM := Nat.le_mul_of_pos_right _ (by omega)
  have hM : g.numM ≤ g.numN * g.numM := Nat.le_mul_of_pos_left _ (by omega)
  refine ⟨n * g.numM + m, ?_, hlt, ?_⟩
  · unfold nodeIndex u32
    rw [if_neg (by simp only [missing]; omega), Nat.mod_eq_of_lt (a := n * g.numM) (by omega)]
    rw [Nat.mod_eq_of_lt (by omega), Nat.add_comm]
  · unfold nodeIndices u32
    rw [Nat.mul_comm g.numM, Nat.mod_eq_of_lt (by omega), if_neg (by omega), flat_div hm, flat_mod hm]

/-- **C16.** Number to row and column and back. -/
theorem number_to_position_and_back (g : Grid P) (hs : g.numN * g.numM < 2 ^ 32) (i : Nat)
    (hi : i < g.numN * g.numM) :
    ∃ n m, nodeIndices g i = .ok (n, m) ∧ n < g.numN ∧ m < g.numM ∧ nodeIndex g (n, m) = .ok i := by
  have hM : 0 < g.numM := Nat.pos_of_ne_zero (fun h => by rw [h] at hi; omega)
  have hm : i % g.numM < g.numM := Nat.mod_lt _ hM
  have hn : i / g.numM < g.numN := by rw [Nat.div_lt_iff_lt_mul hM]; exact hi
  obtain ⟨j, h1, h2, h3⟩ := position_to_number_and_back g hs _ _ hn hm
  have hd : i / g.numM * g.numM + i % g.numM = i := by rw [Nat.mul_comm]; exact Nat.div_add_mod i _
  refine ⟨i / g.numM, i % g.numM, ?_, hn, hm, ?_⟩
  · unfold nodeIndices u32
    rw [Nat.mul_comm g.numM, Nat.mod_eq_of_lt (by omega), if_neg (by omega)]
  · rw [h1]
    have : j = i := by
      have h4 := h3
      unfold nodeIndices u32 at h4
      rw [Nat.mul_comm g.numM, Nat.mod_eq_of_lt (by omega), if_neg (by omega)] at h4
      injection h4 with h4
      injection h4 with h5 h6
      rw [← Nat.div_add_mod j g.numM, ← Nat.div_add_mod i g.numM, h5, h6]
    rw [this]

/-- **C16.** Numbers beyond the last node are rejected. -/
theorem large_numbers_rejected (g : Grid P) (i : Nat) (hi : g.numN * g.numM ≤ i) : nodeIndices g i = .throw := by
  unfold nodeIndices u32
  rw [if_pos]
  have := Nat.mod_le (g.numM * g.numN) 4294967296
  rw [Nat.mul_comm] at hi
  omega

/-- **C16 does not hold** for positions outside the grid: the position one past the end of the first row gets
the number of the first node of the second row instead of being rejected. -/
theorem positions_outside_accepted (g : Grid P) (hM : g.numM < 2 ^ 32 - 1) :
    nodeIndex g (0, g.numM) = .ok g.numM ∧ nodeIndex g (1, 0) = .ok g.numM := by
  unfold nodeIndex u32
  constructor
  · rw [if_neg (by simp only [missing]; omega)]
    simp only [Nat.zero_mul, Nat.zero_mod, Nat.add_zero]
    rw [Nat.mod_eq_of_lt (by omega)]
  · rw [if_neg (by simp only [missing]; omega)]
    simp only [Nat.one_mul, Nat.zero_add]
    rw [Nat.mod_mod, Nat.mod_eq_of_lt (by omega)]

/-- **C16 does not hold** for very large grids: with 65536 nodes in each direction the count of nodes wraps
around to zero and every number is rejected. -/
theorem huge_grid_rejects_everything (c : Nat → Nat → P) (i : Nat) :
    numNodes (⟨65536, 65536, c, 0, 0, 0, 0⟩ : Grid P) = 0 ∧
    nodeIndices (⟨65536, 65536, c, 0, 0, 0, 0⟩ : Grid P) i = .throw := by
  constructor
  · simp [numNodes, u32, Grid.numN, Grid.numM]
  · unfold nodeIndices
    rw [if_pos]
    have : u32 (Grid.numM (⟨65536, 65536, c, 0, 0, 0, 0⟩ : Grid P) * Grid.numN (⟨65536, 65536, c, 0, 0, 0, 0⟩ : Grid P)) = 0 := by
      simp [u32, Grid.numN, Grid.numM]
    omega

/-- **C16.** Euler's relation between the reported counts. -/
theorem euler (g : Grid P) (hg : WF g) (hs : 2 * (g.numN * g.numM) < 2 ^ 32) :
    numNodes g + numFaces g = numEdges g + 1 := by
  unfold numNodes numFaces numEdges u32
  have hn := hg.two_le_numN
  have hm := hg.two_le_numM
  generalize g.numN = N at *
  generalize g.numM = M at *
  obtain ⟨a, rfl⟩ : ∃ a, N = a + 2 := ⟨N - 2, by omega⟩
  obtain ⟨b, rfl⟩ : ∃ b, M = b + 2 := ⟨M - 2, by omega⟩
  have e1 : a + 2 - 1 = a + 1 := by omega
  have e2 : b + 2 - 1 = b + 1 := by omega
  rw [e1, e2]
  have h1 : (b + 2) * (a + 1) + (b + 1) * (a + 2) + 1 = (a + 2) * (b + 2) + (a + 1) * (b + 1) := by ring
  have h2 : (a + 1) * (b + 1) ≤ (a + 2) * (b + 2) := Nat.mul_le_mul (by omega) (by omega)
  rw [Nat.mod_eq_of_lt (by omega), Nat.mod_eq_of_lt (by omega), Nat.mod_eq_of_lt (by omega)]
  omega

/-- **C16, C17.** The exported node list has the reported number of entries; entry number `i` is the node whose
number is `i`, so every visible node occurs at one place, row by row. -/
theorem exported_nodes [PointLike P] (g : Grid P) (hg : WF g) (hs : g.numN * g.numM < 2 ^ 32) :
    ∃ l, computeNodes g = .ok l ∧ l.length = numNodes g ∧
      ∀ n m, n < g.numN → m < g.numM → ∃ i, nodeIndex g (n, m) = .ok i ∧ l[i]? = some (g.node n m) := by
  refine ⟨_, computeNodes_ok g hg, ?_, ?_⟩
  · rw [length_rows, numNodes, u32, Nat.mod_eq_of_lt (by omega)]
  · intro n m hn hm
    obtain ⟨i, h1, h2, h3⟩ := position_to_number_and_back g hs n m hn hm
    refine ⟨i, h1, ?_⟩
    unfold nodeIndices u32 at h3
    rw [Nat.mul_comm g.numM, Nat.mod_eq_of_lt (by omega), if_neg (by omega)] at h3
    injection h3 with h3
    injection h3 with h5 h6
    have hd : n * g.numM + m = i := by rw [← h5, ← h6, Nat.mul_comm]; exact Nat.div_add_mod i _
    rw [← hd, getElem_rows _ _ _ _ _ hn hm]

/-- **C17.** The list of node positions agrees with the numbering. -/
theorem exported_positions (g : Grid P) (hs : g.numN * g.numM < 2 ^ 32) :
    ∃ l, computeNodeIndices g = .ok l ∧ l.length = g.numN * g.numM ∧
      ∀ i, i < g.numN * g.numM → ∃ p, l[i]? = some p ∧ nodeIndices g i = .ok p := by
  refine ⟨_, computeNodeIndices_ok g, length_rows _ _ _, ?_⟩
  intro i hi
  obtain ⟨n, m, h1, hn, hm, h2⟩ := number_to_position_and_back g hs i hi
  refine ⟨(n, m), ?_, h1⟩
  obtain ⟨j, h3, h4, h5⟩ := position_to_number_and_back g hs n m hn hm
  rw [h2] at h3
  injection h3 with h3
  subst h3
  unfold nodeIndices u32 at h1
  rw [Nat.mul_comm g.numM, Nat.mod_eq_of_lt (by omega), if_neg (by omega)] at h1
  injection h1 with h1
  injection h1 with h5 h6
  have hd : n * g.numM + m = i := by rw [← h5, ← h6, Nat.mul_comm]; exact Nat.div_add_mod i _
  rw [← hd, getElem_rows _ _ _ _ _ hn hm]

/-- Node numbers `a` and `b` are neighbours in the grid with `M` columns, `b` after `a`. -/
def Follows (M a b : Nat) : Prop :=
  (b / M = a / M + 1 ∧ b % M = a % M) ∨ (b / M = a / M ∧ b % M = a % M + 1)

theorem nodup_rows {α : Type} (g : Nat → Nat → α) (N M : Nat)
    (h : ∀ n m n' m', m < M → m' < M → g n m = g n' m' → n = n' ∧ m = m') :
    ((List.range N).flatMap (fun n => (List.range M).map (g n))).Nodup := by
  rw [List.nodup_flatMap]
  constructor
  · intro n _
    rw [List.nodup_map_iff_inj_on List.nodup_range]
    intro a ha b hb e
    exact (h n a n b (List.mem_range.1 ha) (List.mem_range.1 hb) e).2
  · refine List.Pairwise.imp ?_ (List.nodup_range (n := N))
    intro n n' hne x hx hx'
    rw [List.mem_map] at hx hx'
    obtain ⟨m, hm, rfl⟩ := hx
    obtain ⟨m', hm', e⟩ := hx'
    exact hne (h n' m' n m (List.mem_range.1 hm') (List.mem_range.1 hm) e).1.symm

/-- **C17.** The exported edges are precisely the pairs of neighbouring nodes, each once, and as many as
reported. -/
theorem exported_edges (g : Grid P) (hg : WF g) (hs : 2 * (g.numN * g.numM) < 2 ^ 32) :
    ∃ es, computeEdges g = .ok es ∧ es.Nodup ∧ es.length = numEdges g ∧
      (∀ a b, (a, b) ∈ es ↔ a < g.numN * g.numM ∧ b < g.numN * g.numM ∧ Follows g.numM a b) ∧
      ∀ a b, (a, b) ∈ es → a < b := by
  have hn2 := hg.two_le_numN
  have hm2 := hg.two_le_numM
  refine ⟨_, computeEdges_ok g hg, ?_, ?_, ?_, ?_⟩
  · rw [List.nodup_append]
    refine ⟨?_, ?_, ?_⟩
    · apply nodup_rows
      intro n m n' m' hm hm' e
      injection e with e1 e2
      rw [Nat.mul_comm, Nat.mul_comm _ n'] at e1
      constructor
      · have := congrArg (· / g.numM) e1
        simpa [flat_div hm, flat_div hm'] using this
      · have := congrArg (· % g.numM) e1
        simpa [flat_mod hm, flat_mod hm'] using this
    · apply nodup_rows
      intro n m n' m' hm hm' e
      injection e with e1 e2
      rw [Nat.mul_comm, Nat.mul_comm _ n'] at e1
      have hm := Nat.lt_of_lt_of_le hm (Nat.sub_le _ _)
      have hm' := Nat.lt_of_lt_of_le hm' (Nat.sub_le _ _)
      constructor
      · have := congrArg (· / g.numM) e1
        simpa [flat_div hm, flat_div hm'] using this
      · have := congrArg (· % g.numM) e1
        simpa [flat_mod hm, flat_mod hm'] using this
    · intro x hx y hy e
      subst e
      simp only [List.mem_flatMap, List.mem_map, List.mem_range] at hx hy
      obtain ⟨n, hn, m, hm, rfl⟩ := hx
      obtain ⟨n', hn', m', hm', e⟩ := hy
      injection e with e1 e2
      have : g.numM * (n + 1) = g.numM * n + g.numM := by ring
      omega
  · rw [List.length_append, length_rows, length_rows, numEdges, u32, Nat.mod_eq_of_lt]
    · ring
    · have h1 : g.numM * (g.numN - 1) ≤ g.numM * g.numN := Nat.mul_le_mul_left _ (by omega)
      have h2 : (g.numM - 1) * g.numN ≤ g.numM * g.numN := Nat.mul_le_mul_right _ (by omega)
      rw [Nat.mul_comm g.numM g.numN] at h1 h2
      omega
  · intro a b
    simp only [List.mem_append, List.mem_flatMap, List.mem_map, List.mem_range, Prod.mk.injEq]
    constructor
    · rintro (⟨n, hn, m, hm, rfl, rfl⟩ | ⟨n, hn, m, hm, rfl, rfl⟩)
      · rw [Nat.mul_comm g.numM n, Nat.mul_comm g.numM (n + 1)]
        refine ⟨flat_lt (by omega) hm, flat_lt (by omega) hm, Or.inl ?_⟩
        rw [flat_div hm, flat_div hm, flat_mod hm, flat_mod hm]
        exact ⟨rfl, rfl⟩
      · have hm' : m < g.numM := by omega
        have hm1 : m + 1 < g.numM := by omega
        rw [Nat.mul_comm g.numM n, Nat.add_assoc]
        refine ⟨flat_lt hn hm', flat_lt hn hm1, Or.inr ?_⟩
        rw [flat_div hm', flat_div hm1, flat_mod hm', flat_mod hm1]
        exact ⟨rfl, rfl⟩
    · rintro ⟨ha, hb, h⟩
      have hM : 0 < g.numM := by omega
      have ha1 : a / g.numM < g.numN := by rw [Nat.div_lt_iff_lt_mul hM]; exact ha
      have hb1 : b / g.numM < g.numN := by rw [Nat.div_lt_iff_lt_mul hM]; exact hb
      have ha2 := Nat.mod_lt a hM
      have hb2 := Nat.mod_lt b hM
      have ha3 := Nat.div_add_mod a g.numM
      have hb3 := Nat.div_add_mod b g.numM
      rcases h with ⟨h1, h2⟩ | ⟨h1, h2⟩
      · left
        exact ⟨a / g.numM, by omega, a % g.numM, ha2, ha3, by rw [← h1, ← h2]; exact hb3⟩
      · right
        exact ⟨a / g.numM, ha1, a % g.numM, by omega, ha3, by rw [Nat.add_assoc, ← h2, ← h1]; exact hb3⟩
  · intro a b
    simp only [List.mem_append, List.mem_flatMap, List.mem_map, List.mem_range, Prod.mk.injEq]
    rintro (⟨n, hn, m, hm, rfl, rfl⟩ | ⟨n, hn, m, hm, rfl, rfl⟩)
    · have : g.numM * (n + 1) = g.numM * n + g.numM := by ring
      omega
    · omega

instance : PointLike (Option Nat) := ⟨Option.isSome, none, rfl⟩

/-- A 4 by 5 matrix with the first row and the last column hidden. -/
def exampleGrid : Grid (Option Nat) := ⟨4, 5, fun i j => some (10 * i + j), 1, 0, 0, 1⟩

example : WF exampleGrid ∧ exampleGrid.numN = 3 ∧ exampleGrid.numM = 4 ∧
    2 * (exampleGrid.numN * exampleGrid.numM) < 2 ^ 32 :=
  ⟨⟨by decide, by decide⟩, by decide, by decide, by decide⟩

example : computeNodes exampleGrid = .ok [some 10, some 11, some 12, some 13, some 20, some 21, some 22, some 23,
    some 30, some 31, some 32, some 33] := by decide

example : nodeIndex exampleGrid (2, 1) = .ok 9 ∧ nodeIndices exampleGrid 9 = .ok (2, 1) := by decide

end Verif.Curvi
