import Verif.Flip.Props
import Verif.Quality.Lemmas
/-!
# Flipping edges: examples, and where it falls short
-/
namespace Verif.Flip
open Verif.Mesh Verif.Faces
open Verif.Polygons (Pt)

/-- The edges after a normal end, and whether the flipping returned early. -/
def edgesAfter (r : Res Ending) : Option (List Edge × Bool) :=
  match r with
  | .ok (.done _ m left) => some (m.edges, left)
  | _ => none

/-- The edges after the exception. -/
def failedEdges (r : Res Ending) : Option (List Edge) :=
  match r with
  | .ok (.failed m) => some m.edges
  | _ => none

/-- The run is undefined. -/
def isUndefined (r : Res Ending) : Bool :=
  match r with
  | .ub => true
  | _ => false

/-- The corners of the faces of a mesh. -/
def facesOf (m : Mesh Pt) : List (List Nat) :=
  match doAdministrationCartesian m with
  | .ok (_, s) => s.facesNodes
  | _ => []

/-- The centre of a square joined to eight points of its boundary. -/
def spokes : Mesh Pt where
  nodes := [some ⟨1, 1⟩, some ⟨0, 0⟩, some ⟨1, 0⟩, some ⟨2, 0⟩, some ⟨2, 1⟩, some ⟨2, 2⟩, some ⟨1, 2⟩, some ⟨0, 2⟩, some ⟨0, 1⟩]
  edges := [(0, 2), (0, 1), (0, 3), (0, 4), (0, 5), (0, 6), (0, 7), (0, 8), (1, 2), (2, 3), (3, 4), (4, 5), (5, 6), (6, 7), (7, 8), (8, 1)]
  nodesEdges := List.replicate 9 []
  numEdges := List.replicate 9 0

theorem spokes_manageable : Manageable spokes := manageable_of_check (by decide +kernel)

/-- `flip_edges_outcome`, `flip_edges_undo`: a mesh that is changed. -/
example : Manageable spokes ∧ spokes.nodes ≠ [] ∧ spokes.edges ≠ [] ∧ spokes.numEdges.length = spokes.nodes.length ∧
    edgesAfter (compute false spokes) ≠ some (spokes.edges, false) ∧ edgesAfter (compute false spokes) ≠ none :=
  ⟨spokes_manageable, by decide, by decide, by decide, by decide +kernel, by decide +kernel⟩

/-- Two squares side by side. -/
def twoSquares : Mesh Pt where
  nodes := [some ⟨0, 0⟩, some ⟨1, 0⟩, some ⟨2, 0⟩, some ⟨0, 1⟩, some ⟨1, 1⟩, some ⟨2, 1⟩]
  edges := [(0, 1), (1, 2), (3, 4), (4, 5), (0, 3), (1, 4), (2, 5)]
  nodesEdges := List.replicate 6 []
  numEdges := List.replicate 6 0

/-- Result of the administration and the triangulation. -/
def triangulated (m : Mesh Pt) : Option (Mesh Pt) :=
  match doAdministrationCartesian m with
  | .ok (m1, s) => (match triangulateFaces s.facesNodes m1 with
    | .ok (_, mt) => some mt
    | _ => none)
  | _ => none

/-- `flip_edges_triangulated_partial`, `flip_edges_triangulated_undo_partial`: two squares become four triangles. -/
example : ∃ m1 s ts mt, Manageable twoSquares ∧ doAdministrationCartesian twoSquares = .ok (m1, s) ∧
    triangulateFaces s.facesNodes m1 = .ok (ts, mt) ∧ Manageable mt ∧ mt.edges ≠ m1.edges := by
  have h0 : Manageable twoSquares := manageable_of_check (by decide +kernel)
  obtain ⟨m1, s, ts, mt, h1, h2, _⟩ := triangulation h0 (by decide) (by decide)
  have h3 : triangulated twoSquares = some mt := by
    unfold triangulated
    rw [h1]
    simp only []
    rw [h2]
  have h4 : (triangulated twoSquares).all manageableCheck = true := by decide +kernel
  have h5 : (triangulated twoSquares).all (fun m => decide (m.edges.length = 9)) = true := by decide +kernel
  have h6 : (match doAdministrationCartesian twoSquares with | .ok (m1, _) => decide (m1.edges.length = 7) | _ => false) = true := by decide +kernel
  rw [h3] at h4 h5
  rw [h1] at h6
  refine ⟨m1, s, ts, mt, h0, h1, h2, manageable_of_check h4, fun h => ?_⟩
  have e1 : mt.edges.length = 9 := of_decide_eq_true h5
  have e2 : m1.edges.length = 7 := of_decide_eq_true h6
  rw [h] at e1
  omega

/-- `triangulation`: the two diagonals. -/
example : (triangulated twoSquares).map (·.edges.drop 7) = some [(0, 4), (1, 5)] := by decide +kernel

/-- Two triangles on the diagonal of a square. -/
def pair : Mesh Pt where
  nodes := [some ⟨0, 0⟩, some ⟨1, 0⟩, some ⟨1, 1⟩, some ⟨0, 1⟩]
  edges := [(0, 1), (1, 2), (2, 3), (3, 0), (0, 2)]
  nodesEdges := List.replicate 4 []
  numEdges := List.replicate 4 0

/-- `flip_edges_ends`: two triangles, all numbers of edges off by one. -/
example : ∃ m1 s want, doAdministrationCartesian pair = .ok (m1, s) ∧ Wants m1 s want ∧ Outcome want m1 s (compute false pair) ∧
    energy want m1.nodes.length m1.edges < 10 := by
  obtain ⟨m1, s, want, h1, h2, h3⟩ := flip_edges_outcome (m := pair) (manageable_of_check (by decide +kernel)) (by decide) (by decide) []
  refine ⟨m1, s, want, h1, h2, h3, ?_⟩
  have h4 : (match doAdministrationCartesian pair with
      | .ok (m1, s) => decide (m1.edges = pair.edges ∧ m1.nodes.length = 4 ∧ s.numFaces = [1, 1, 1, 1, 2])
      | _ => false) = true := by decide +kernel
  rw [h1] at h4
  obtain ⟨e1, e2, e3⟩ := of_decide_eq_true h4
  have hw := h2.2 (fun e p hp _ => by
    rw [e1] at hp
    have hlt := (List.getElem?_eq_some_iff.1 hp).1
    rw [e3]
    exact (show ∀ e, e < 5 → ([1, 1, 1, 1, 2] : List Nat)[e]? ≠ some 0 by decide) e hlt)
  rw [e1, e2, e3] at hw
  have w : ∀ n, n < 4 → want n = ideal pair.edges [1, 1, 1, 1, 2] n := hw
  have : energy want 4 pair.edges = energy (ideal pair.edges [1, 1, 1, 1, 2]) 4 pair.edges := by
    unfold energy
    exact Finset.sum_congr rfl fun n hn => by rw [w n (Finset.mem_range.1 hn)]
  rw [e1, e2, this]
  decide +kernel

/-- A flat triangle may appear on the boundary.  The middle of a side is joined to nothing else any more, and the edge between the ends of the side
lies upon the two halves of it, since the test of `AreSegmentsCrossing` includes the ends of the segments. -/
theorem not_flat_free : ∃ m : Mesh Pt, Manageable m ∧ (∀ ns ∈ facesOf m, ns.length = 3) ∧
    ∃ es, edgesAfter (compute false m) = some (es, false) ∧ (3, 1) ∈ es ∧ (1, 2) ∈ es ∧ (2, 3) ∈ es ∧
      m.nodes[1]? = some (some ⟨0, 0⟩) ∧ m.nodes[2]? = some (some ⟨1, 0⟩) ∧ m.nodes[3]? = some (some ⟨2, 0⟩) :=
  ⟨spokes, spokes_manageable, by decide +kernel, (3, 1) :: spokes.edges.drop 1, by decide +kernel, by decide, by decide, by decide, rfl, rfl, rfl⟩

/-- The same mesh and a square beside it. -/
def mixed (first last : List Edge) : Mesh Pt where
  nodes := spokes.nodes ++ [some ⟨3, 0⟩, some ⟨3, 1⟩]
  edges := first ++ [(0, 1), (0, 2), (0, 3), (0, 4), (0, 5), (0, 6), (0, 7), (0, 8), (1, 2), (2, 3), (4, 5), (5, 6), (6, 7), (7, 8), (8, 1),
    (3, 9), (9, 10), (10, 4)] ++ last
  nodesEdges := List.replicate 11 []
  numEdges := List.replicate 11 0

/-- One face that is not a triangle stops the flipping everywhere: the same mesh is left as it is or improved, depending on the number of an edge of the
square. -/
theorem not_independent_of_numbering : Manageable (mixed [(3, 4)] []) ∧ Manageable (mixed [] [(3, 4)]) ∧
    edgesAfter (compute false (mixed [(3, 4)] [])) = some ((mixed [(3, 4)] []).edges, true) ∧
    (∃ es, edgesAfter (compute false (mixed [] [(3, 4)])) = some (es, true) ∧ (0, 1) ∉ es) :=
  ⟨manageable_of_check (by decide +kernel), manageable_of_check (by decide +kernel), by decide +kernel,
    (2, 8) :: (mixed [] [(3, 4)]).edges.drop 1, by decide +kernel, by decide⟩

/-- A quadrilateral with a corner inwards. -/
def arrow : Mesh Pt where
  nodes := [some ⟨0, 0⟩, some ⟨2, 1⟩, some ⟨4, 0⟩, some ⟨2, 4⟩]
  edges := [(0, 1), (1, 2), (2, 3), (3, 0)]
  nodesEdges := List.replicate 4 []
  numEdges := List.replicate 4 0

/-- The triangulation may draw a line outside the face: the face stays and a triangle beside it is new. -/
theorem not_triangulated : Manageable arrow ∧ facesOf arrow = [[0, 1, 2, 3]] ∧
    ∃ mt, triangulated arrow = some mt ∧ mt.edges = arrow.edges ++ [(0, 2)] ∧ facesOf mt = [[0, 2, 1], [0, 1, 2, 3]] := by
  have h0 : Manageable arrow := manageable_of_check (by decide +kernel)
  obtain ⟨m1, s, ts, mt, h1, h2, _⟩ := triangulation h0 (by decide) (by decide)
  have h3 : triangulated arrow = some mt := by
    unfold triangulated
    rw [h1]
    simp only []
    rw [h2]
  have h4 : (triangulated arrow).all (fun m => decide (m.edges = arrow.edges ++ [(0, 2)] ∧ facesOf m = [[0, 2, 1], [0, 1, 2, 3]])) = true := by
    decide +kernel
  rw [h3] at h4
  exact ⟨h0, by decide +kernel, mt, h3, of_decide_eq_true h4⟩

/-- The selecting polygon does not select: an edge is flipped that lies outside. -/
theorem polygon_ignored : ∃ polygon es, edgesAfter (apiFlip polygon false spokes) = some (es, false) ∧ es[0]? ≠ spokes.edges[0]? ∧
    spokes.edges[0]? = some (0, 2) ∧ (position spokes.nodes 0).y < 3 / 2 ∧ (position spokes.nodes 2).y < 3 / 2 ∧
    ∀ p ∈ polygon, (3 / 2 : ℚ) ≤ p.y :=
  ⟨[⟨0, 3 / 2⟩, ⟨2, 3 / 2⟩, ⟨2, 3⟩, ⟨0, 3⟩, ⟨0, 3 / 2⟩], (3, 1) :: spokes.edges.drop 1, by decide +kernel, by decide, rfl, by decide +kernel,
    by decide +kernel, by decide +kernel⟩

/-- Three triangles in the middle, and fans. -/
def long : Mesh Pt where
  nodes := [
    (280, 0), (320, 0), (360, 0), (260, 36), (300, 36), (340, 36), (320, 100), (291.43, 73.88), (297.14, 68.65), (302.86, 68.65),
    (308.57, 73.88), (314.29, 84.33), (325.0, 86.0), (330.0, 76.0), (335.0, 70.0), (340.0, 68.0), (345.0, 70.0), (350.0, 76.0)].map fun p => some ⟨p.1, p.2⟩
  edges := [
    (4, 6), (5, 6), (4, 5), (9, 10), (4, 10), (0, 3), (16, 17), (0, 1), (4, 9), (12, 13), (6, 11), (5, 17), (2, 5), (0, 4), (5, 12), (15, 16),
    (8, 9), (1, 2), (5, 16), (1, 4), (1, 5), (3, 4), (5, 13), (13, 14), (14, 15), (5, 15), (10, 11), (5, 14), (4, 8), (7, 8), (6, 12), (4, 11),
    (4, 7)]
  nodesEdges := List.replicate 18 []
  numEdges := List.replicate 18 0

/-- The flipping may need more than ten rounds.  It then fails after changing the mesh, and there is no undo action. -/
theorem not_always_finished : ∃ m : Mesh Pt, Manageable m ∧ (∀ ns ∈ facesOf m, ns.length = 3) ∧
    ∃ es, failedEdges (compute false m) = some es ∧ es ≠ m.edges := by
  refine ⟨long, manageable_of_check (by decide +kernel), by decide +kernel, ?_⟩
  have h : (match failedEdges (compute false long) with | some es => decide (es ≠ long.edges) | none => false) = true := by decide +kernel
  cases hf : failedEdges (compute false long) with
  | none => rw [hf] at h; exact absurd h (by simp)
  | some es => rw [hf] at h; exact ⟨es, rfl, of_decide_eq_true h⟩

/-- A node with 16 edges, on the far side of an edge that has to be flipped. -/
def crowded : Mesh Pt where
  nodes := [
    some ⟨0, 10⟩, some ⟨0, -10⟩, some ⟨-30, 0⟩, some ⟨5, 0⟩, some ⟨40, 0⟩, some ⟨-12, 60⟩, some ⟨-4, 60⟩, some ⟨4, 60⟩, some ⟨12, 60⟩,
    some ⟨20, 60⟩, some ⟨28, 60⟩, some ⟨36, 60⟩, some ⟨-12, -60⟩, some ⟨-4, -60⟩, some ⟨4, -60⟩, some ⟨12, -60⟩, some ⟨20, -60⟩,
    some ⟨28, -60⟩, some ⟨36, -60⟩, some ⟨-60, 66⟩, some ⟨-60, 54⟩, some ⟨-60, 42⟩, some ⟨-60, 30⟩, some ⟨-60, 18⟩, some ⟨-60, 6⟩,
    some ⟨-60, -6⟩, some ⟨-60, -18⟩, some ⟨-60, -30⟩, some ⟨-60, -42⟩, some ⟨-60, -54⟩, some ⟨-60, -66⟩]
  edges := [
    (0, 1), (0, 2), (1, 2), (0, 3), (1, 3), (3, 4), (0, 4), (1, 4), (0, 5), (0, 6), (0, 7), (0, 8), (0, 9), (0, 10), (0, 11), (1, 12), (1, 13),
    (1, 14), (1, 15), (1, 16), (1, 17), (1, 18), (2, 5), (2, 12), (2, 19), (2, 20), (2, 21), (2, 22), (2, 23), (2, 24), (2, 25), (2, 26),
    (2, 27), (2, 28), (2, 29), (2, 30), (4, 11), (11, 10), (10, 9), (9, 8), (8, 7), (7, 6), (6, 5), (5, 19), (19, 20), (20, 21), (21, 22),
    (22, 23), (23, 24), (24, 25), (25, 26), (26, 27), (27, 28), (28, 29), (29, 30), (30, 12), (12, 13), (13, 14), (14, 15), (15, 16), (16, 17),
    (17, 18), (18, 4)]
  nodesEdges := List.replicate 31 []
  numEdges := List.replicate 31 0

/-- A flip may give a node a seventeenth edge, and the table of 16 angles is written beyond its end. -/
theorem not_always_defined : ∃ m : Mesh Pt, Manageable m ∧ isUndefined (compute false m) = true :=
  ⟨crowded, manageable_of_check (by decide +kernel), by decide +kernel⟩

end Verif.Flip
