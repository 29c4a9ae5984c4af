import Verif.MergeClose.Props
import Verif.Sampling.Model
import Verif.Faces.Props
import Mathlib.Tactic.Linarith
import Mathlib.Tactic.NormNum
/-!
# C63: merging close nodes, examples and what is not so
-/
namespace Verif.MergeClose
open Verif.Mesh Verif.Faces
open Verif.Polygons (Pt)
open Verif.Sampling (near)
variable {P : Type}

/-! ### When two nodes are close -/

/-- Points in the plane; the tree reports in the order of the nodes. -/
def plane : Env Pt where
  close d p q := near p (d * d) q
  report l := l
  distance p q := |q.x - p.x| + |q.y - p.y|
  order _ l := l

theorem near_symm (p q : Pt) (r : ℚ) : near p r q = near q r p := by
  have h1 : (q.x - p.x) * (q.x - p.x) = (p.x - q.x) * (p.x - q.x) := by ring
  have h2 : (q.y - p.y) * (q.y - p.y) = (p.y - q.y) * (p.y - q.y) := by ring
  simp only [near, h1, h2]

/-- The test of the tree can be used as the meaning of "close": a node is close to itself, the test is symmetric, nodes nearer than the distance are
close, and close nodes are not further apart than the distance. -/
theorem plane_close (d : ℚ) (hd : 0 < d) :
    (∀ p, plane.close d p p = true) ∧ (∀ p q, plane.close d p q = plane.close d q p) ∧
    (∀ p q, (q.x - p.x) * (q.x - p.x) + (q.y - p.y) * (q.y - p.y) < d * d → plane.close d p q = true) ∧
    (∀ p q, plane.close d p q = true → (q.x - p.x) * (q.x - p.x) + (q.y - p.y) * (q.y - p.y) ≤ d * d) := by
  have hdd : 0 < d * d := mul_pos hd hd
  refine ⟨?_, fun p q => near_symm p q _, ?_, ?_⟩
  · intro p
    simp only [plane, near, sub_self, mul_zero, add_zero, Bool.and_eq_true, decide_eq_true_eq]
    exact ⟨⟨hdd, hdd⟩, hdd.le⟩
  · intro p q h
    have h1 := mul_self_nonneg (q.x - p.x)
    have h2 := mul_self_nonneg (q.y - p.y)
    simp only [plane, near, Bool.and_eq_true, decide_eq_true_eq]
    exact ⟨⟨by linarith, by linarith⟩, h.le⟩
  · intro p q h
    simp only [plane, near, Bool.and_eq_true, decide_eq_true_eq] at h
    exact h.2

example : plane.close 1 ⟨0, 0⟩ ⟨1 / 2, 1 / 2⟩ = true := by decide +kernel

/-- Of two nodes that are exactly the distance apart, whether they are merged depends on the direction: along an axis they are not, else they are. -/
theorem exact_distance_depends_on_direction : plane.close 5 ⟨0, 0⟩ ⟨5, 0⟩ = false ∧ plane.close 5 ⟨0, 0⟩ ⟨3, 4⟩ = true := by decide +kernel

/-! ### Example: two squares along a narrow gap -/

/-- Two unit squares with a gap of one hundredth between them. -/
def gap : Mesh Pt where
  nodes := [some ⟨0, 0⟩, some ⟨1, 0⟩, some ⟨1, 1⟩, some ⟨0, 1⟩, some ⟨101 / 100, 0⟩, some ⟨2, 0⟩, some ⟨2, 1⟩, some ⟨101 / 100, 1⟩]
  edges := [(0, 1), (1, 2), (2, 3), (3, 0), (4, 5), (5, 6), (6, 7), (7, 4)]
  nodesEdges := []
  numEdges := [2, 2, 2, 2, 2, 2, 2, 2]

theorem gap_manageable : Manageable gap := manageable_of_check (by decide +kernel)

theorem cluster_le_all (close : P → P → Bool) (polygons : List (P → Bool)) (m : Mesh P) (n : Nat) :
    clusterDegree close polygons m n ≤ ∑ i ∈ Finset.range m.nodes.length, degree m i := by
  classical
  unfold clusterDegree
  apply Finset.sum_le_sum_of_subset
  intro i hi
  exact (Finset.mem_filter.1 hi).1

/-- The two squares meet the conditions of `merge_close_partial`, without polygon and with distance one tenth. -/
example : (∀ n l, (plane.order n l).Perm l) ∧ (∀ l, (plane.report l).Perm l) ∧ AllUsed [] gap ∧ (∃ i p, Chosen [] gap i p) ∧
    (∀ n, clusterDegree (plane.close (1 / 10)) [] gap n ≤ 16) ∧ (∃ i j, Near (plane.close (1 / 10)) [] gap i j) :=
  ⟨fun _ _ => .rfl, fun _ => .rfl, by unfold AllUsed Used; decide +kernel, ⟨0, ⟨0, 0⟩, by unfold Chosen; decide +kernel⟩,
    fun n => Nat.le_trans (cluster_le_all _ _ _ n) (by decide +kernel),
    ⟨1, 4, by decide, ⟨1, 0⟩, ⟨101 / 100, 0⟩, by unfold Chosen; decide +kernel, by unfold Chosen; decide +kernel, by decide +kernel⟩⟩

/-- What a call leaves: positions and edges. -/
def outcome (r : Res (Option (List (Act Pt)) × Mesh Pt)) : Res (List (Option Pt) × List Edge) := do
  let x ← r
  .ok (x.2.nodes, x.2.edges)

/-- The squares are sewn together: nodes 1 and 2 have gone, and one of the two sides along the gap. -/
example : outcome (mergeNodesDistanceCall plane [] (1 / 10) gap) =
    .ok ([some ⟨0, 0⟩, none, none, some ⟨0, 1⟩, some ⟨101 / 100, 0⟩, some ⟨2, 0⟩, some ⟨2, 1⟩, some ⟨101 / 100, 1⟩],
      [(0, 4), (4, 7), (7, 3), (3, 0), (4, 5), (5, 6), (6, 7), noEdge]) := by decide +kernel

/-- And with a polygon, for `merge_twice_partial`. -/
example : AllUsed [fun p : Pt => decide (p.y < 1 / 2)] gap ∧ (∃ i p, Chosen [fun p : Pt => decide (p.y < 1 / 2)] gap i p) ∧
    outcome (mergeNodesDistanceCall plane [fun p => decide (p.y < 1 / 2)] (1 / 10) gap) =
    .ok ([some ⟨0, 0⟩, none, some ⟨1, 1⟩, some ⟨0, 1⟩, some ⟨101 / 100, 0⟩, some ⟨2, 0⟩, some ⟨2, 1⟩, some ⟨101 / 100, 1⟩],
      [(0, 4), (4, 2), (2, 3), (3, 0), (4, 5), (5, 6), (6, 7), (7, 4)]) :=
  ⟨by unfold AllUsed Used; decide +kernel, ⟨0, ⟨0, 0⟩, by unfold Chosen; decide +kernel⟩, by decide +kernel⟩

/-! ### The distance chosen by `mkernel_mesh2d_merge_nodes` -/

/-- The edge has a selected end. -/
def SelectedEnd (polygons : List (P → Bool)) (m : Mesh P) (e : Edge) : Prop :=
  inFirst polygons (m.nodes[e.1]?).join = true ∨ inFirst polygons (m.nodes[e.2]?).join = true

theorem flags_get (polygons : List (P → Bool)) (m : Mesh P) {n : Nat} (hn : n < m.nodes.length) :
    vget (m.nodes.map (inFirst polygons)) n = .ok (inFirst polygons (m.nodes[n]?).join) := by
  rw [vget_of (a := inFirst polygons m.nodes[n]) (by simp [hn]), List.getElem?_eq_getElem hn]
  rfl

theorem atSelected_ok (polygons : List (P → Bool)) (m : Mesh P) {e : Edge} (h : e.1 < m.nodes.length ∧ e.2 < m.nodes.length) :
    ∃ b, atSelected (m.nodes.map (inFirst polygons)) e = .ok b ∧ (b = true ↔ SelectedEnd polygons m e) := by
  rw [atSelected, flags_get polygons m h.1, flags_get polygons m h.2, Res.ok_bind]
  unfold SelectedEnd
  cases inFirst polygons (m.nodes[e.1]?).join with
  | true => exact ⟨true, rfl, by simp⟩
  | false => exact ⟨_, rfl, by simp⟩

theorem minOver_ok (env : Env P) (polygons : List (P → Bool)) (m : Mesh P) (es : List Edge)
    (h : ∀ e ∈ es, e.1 < m.nodes.length ∧ e.2 < m.nodes.length) (r : ℚ) :
    ∃ l, minOver env m (m.nodes.map (inFirst polygons)) es r = .ok l ∧ l ≤ r ∧ (∀ e ∈ es, SelectedEnd polygons m e → l ≤ lengthOf env m e) ∧
      (l = r ∨ ∃ e ∈ es, SelectedEnd polygons m e ∧ l = lengthOf env m e) := by
  induction es generalizing r with
  | nil => exact ⟨r, rfl, le_refl _, by simp, Or.inl rfl⟩
  | cons e es ih =>
    obtain ⟨b, hb, hiff⟩ := atSelected_ok polygons m (h e (by simp))
    rw [minOver, hb, Res.ok_bind]
    obtain ⟨l, h1, h2, h3, h4⟩ := ih (fun e' he' => h e' (List.mem_cons_of_mem _ he')) (if b then min r (lengthOf env m e) else r)
    refine ⟨l, h1, ?_, ?_, ?_⟩
    · split at h2
      · exact le_trans h2 (min_le_left _ _)
      · exact h2
    · intro e' he' hs
      rcases List.mem_cons.1 he' with rfl | he'
      · rw [if_pos (hiff.2 hs)] at h2
        exact le_trans h2 (min_le_right _ _)
      · exact h3 e' he' hs
    · rcases h4 with h4 | ⟨e', h5, h6, h7⟩
      · split at h4
        · rename_i hbt
          rcases min_choice r (lengthOf env m e) with q | q
          · exact Or.inl (h4.trans q)
          · exact Or.inr ⟨e, by simp, hiff.1 hbt, h4.trans q⟩
        · exact Or.inl h4
      · exact Or.inr ⟨e', List.mem_cons_of_mem _ h5, h6, h7⟩

/-- **C63.** When no edge has been deleted, the call without a distance uses one tenth of the length of the shortest edge that has a selected end, but
at least 1e-6. -/
theorem distance_from_shortest_edge_partial (env : Env P) (polygons : List (P → Bool)) (largest : ℚ) (m : Mesh P)
    (h : ∀ e ∈ m.edges, e.1 < m.nodes.length ∧ e.2 < m.nodes.length) (hl : ∀ e ∈ m.edges, lengthOf env m e ≤ largest)
    (hex : ∃ e ∈ m.edges, SelectedEnd polygons m e) :
    ∃ e ∈ m.edges, SelectedEnd polygons m e ∧ (∀ e' ∈ m.edges, SelectedEnd polygons m e' → lengthOf env m e ≤ lengthOf env m e') ∧
      mergeNodesCall env polygons largest m = mergeNodesDistanceCall env polygons (max (1 / 1000000) (lengthOf env m e / 10)) m := by
  obtain ⟨l, h1, h2, h3, h4⟩ := minOver_ok env polygons m m.edges h largest
  have key : ∃ e ∈ m.edges, SelectedEnd polygons m e ∧ l = lengthOf env m e := by
    rcases h4 with rfl | h4
    · obtain ⟨e, he, hs⟩ := hex
      exact ⟨e, he, hs, le_antisymm (h3 e he hs) (hl e he)⟩
    · exact h4
  obtain ⟨e, he, hs, rfl⟩ := key
  refine ⟨e, he, hs, h3, ?_⟩
  rw [mergeNodesCall, minEdgeLength, h1, Res.ok_bind, mergeNodesDistanceCall, div_eq_mul_one_div (lengthOf env m e) 10]

example : (∀ e ∈ gap.edges, e.1 < gap.nodes.length ∧ e.2 < gap.nodes.length) ∧ (∀ e ∈ gap.edges, lengthOf plane gap e ≤ 1000) ∧
    lengthOf plane gap (4, 5) = 99 / 100 := by decide +kernel

/-- Once an edge has been deleted, the call without a distance reads a flag at the index of the missing node. -/
theorem deleted_edge_undefined (env : Env P) (polygons : List (P → Bool)) (largest : ℚ) (m : Mesh P) (hn : m.nodes.length ≤ missing)
    (h : ∀ e ∈ m.edges, e = noEdge ∨ (e.1 < m.nodes.length ∧ e.2 < m.nodes.length)) (hd : noEdge ∈ m.edges) :
    mergeNodesCall env polygons largest m = .ub := by
  have key : ∀ (es : List Edge) (r : ℚ), (∀ e ∈ es, e = noEdge ∨ (e.1 < m.nodes.length ∧ e.2 < m.nodes.length)) → noEdge ∈ es →
      minOver env m (m.nodes.map (inFirst polygons)) es r = .ub := by
    intro es
    induction es with
    | nil => intro _ _ h; cases h
    | cons e es ih =>
      intro r h hd
      by_cases he : e = noEdge
      · subst he
        have : vget (m.nodes.map (inFirst polygons)) missing = .ub := by
          unfold vget
          rw [List.getElem?_eq_none (by simpa using hn)]
        rw [minOver, atSelected, show noEdge.1 = missing from rfl, this]
        rfl
      · obtain ⟨b, hb, _⟩ := atSelected_ok polygons m ((h e (by simp)).resolve_left he)
        rw [minOver, hb, Res.ok_bind]
        exact ih _ (fun e' he' => h e' (List.mem_cons_of_mem _ he')) (by
          rcases List.mem_cons.1 hd with q | q
          · exact absurd q.symm he
          · exact q)
  rw [mergeNodesCall, minEdgeLength, key m.edges largest h hd]
  rfl

example : mergeNodesCall plane [] 1000 { gap with edges := (0, 1) :: noEdge :: gap.edges.drop 2 } = .ub := by decide +kernel

/-! ### What is not so -/

/-- Only the first polygon selects: the others are ignored. -/
theorem only_first_polygon (env : Env P) (c : P → Bool) (cs : List (P → Bool)) (d : ℚ) (m : Mesh P) :
    mergeNodesDistanceCall env (c :: cs) d m = mergeNodesDistanceCall env [c] d m := by
  have : inFirst (c :: cs) = inFirst [c] := by
    funext p
    cases p <;> rfl
  have hs : selected (c :: cs) m = selected [c] m := by unfold selected; rw [this]
  unfold mergeNodesDistanceCall mergeNodes
  rw [hs]

/-- A line from (0, 0) to (1, 0), and a node without edges beside its beginning. -/
def beside : Mesh Pt where
  nodes := [some ⟨0, 0⟩, some ⟨1, 0⟩, some ⟨0, 1 / 100⟩]
  edges := [(0, 1)]
  nodesEdges := []
  numEdges := [1, 1, 0]

/-- A node with edges is merged into a node that the administration has just removed, and its edges are lost: nothing of the line is left. -/
theorem merged_into_removed_node :
    Manageable beside ∧ outcome (mergeNodesDistanceCall plane [] (1 / 10) beside) = .ok ([none, none, none], [noEdge]) :=
  ⟨manageable_of_check (by decide +kernel), by decide +kernel⟩

/-- Two lines that nearly meet, after two nodes that have been deleted. -/
def shifted : Mesh Pt where
  nodes := [none, none, some ⟨0, 0⟩, some ⟨0, 1 / 100⟩, some ⟨1, 0⟩, some ⟨0, 1⟩]
  edges := [(2, 4), (3, 5)]
  nodesEdges := []
  numEdges := [0, 0, 1, 1, 1, 1]

/-- With deleted nodes and no polygon the wrong points are taken out of the tree: the two ends are merged into each other and both lines are lost. -/
theorem deleted_nodes_shift_tree : Manageable shifted ∧
    outcome (mergeNodesDistanceCall plane [] (1 / 10) shifted) = .ok ([none, none, none, none, none, none], [noEdge, noEdge]) ∧
    outcome (mergeNodesDistanceCall plane [fun _ => true] (1 / 10) shifted) =
      .ok ([none, none, none, some ⟨0, 1 / 100⟩, some ⟨1, 0⟩, some ⟨0, 1⟩], [(3, 4), (3, 5)]) :=
  ⟨manageable_of_check (by decide +kernel), by decide +kernel, by decide +kernel⟩

/-- One short line after two nodes that have been deleted. -/
def shortLine : Mesh Pt where
  nodes := [none, none, some ⟨0, 0⟩, some ⟨0, 1 / 100⟩]
  edges := [(2, 3)]
  nodesEdges := []
  numEdges := [0, 0, 1, 1]

/-- The position may even lie outside the points of the tree. -/
theorem deleted_nodes_undefined : Manageable shortLine ∧ mergeNodesDistanceCall plane [] (1 / 10) shortLine = .ub :=
  ⟨manageable_of_check (by decide +kernel), by decide +kernel⟩

/-- A short line apart from a longer one. -/
def apart : Mesh Pt where
  nodes := [some ⟨0, 0⟩, some ⟨0, 1 / 100⟩, some ⟨5, 0⟩, some ⟨6, 0⟩]
  edges := [(0, 1), (2, 3)]
  nodesEdges := []
  numEdges := [1, 1, 1, 1]

/-- Undo after a call that merges: the nodes. -/
def undone (r : Res (Option (List (Act Pt)) × Mesh Pt)) : Res (List (Option Pt) × List Edge) := do
  let x ← r
  let y ← (Undo.restoreAll (meshSem Pt) (committed (x.1.getD [])) (.ok x.2)).2
  .ok (y.nodes, y.edges)

/-- Undo does not bring back the nodes that the administration removed: node 1 stays lost, and the edge comes back with an end that is gone. -/
theorem undo_misses_administration : Manageable apart ∧ AllUsed [] apart ∧
    outcome (mergeNodesDistanceCall plane [] (1 / 10) apart) = .ok ([none, none, some ⟨5, 0⟩, some ⟨6, 0⟩], [noEdge, (2, 3)]) ∧
    undone (mergeNodesDistanceCall plane [] (1 / 10) apart) = .ok ([some ⟨0, 0⟩, none, some ⟨5, 0⟩, some ⟨6, 0⟩], [(0, 1), (2, 3)]) :=
  ⟨manageable_of_check (by decide +kernel), by unfold AllUsed Used; decide +kernel, by decide +kernel, by decide +kernel⟩

/-- Four nodes in a row, each with a line upwards. -/
def comb : Mesh Pt where
  nodes := [some ⟨0, 0⟩, some ⟨9 / 10, 0⟩, some ⟨18 / 10, 0⟩, some ⟨27 / 10, 0⟩, some ⟨0, 9⟩, some ⟨9 / 10, 11⟩, some ⟨18 / 10, 13⟩, some ⟨27 / 10, 15⟩]
  edges := [(0, 4), (1, 5), (2, 6), (3, 7)]
  nodesEdges := []
  numEdges := [1, 1, 1, 1, 1, 1, 1, 1]

/-- A node may be moved much further than the distance: all four lines end in the last node, 2.7 away from the first, with a distance of 1. -/
theorem moved_along_chain : Manageable comb ∧
    outcome (mergeNodesDistanceCall plane [] 1 comb) =
      .ok ([none, none, none, some ⟨27 / 10, 0⟩, some ⟨0, 9⟩, some ⟨9 / 10, 11⟩, some ⟨18 / 10, 13⟩, some ⟨27 / 10, 15⟩], [(3, 4), (3, 5), (3, 6), (3, 7)]) :=
  ⟨manageable_of_check (by decide +kernel), by decide +kernel⟩

end Verif.MergeClose
