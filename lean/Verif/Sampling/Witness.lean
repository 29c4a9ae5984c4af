import Verif.Sampling.NodeProps
import Verif.Quality.Props
/-!
# Averaging interpolation: examples, and where it falls short
-/
namespace Verif.Sampling
open Verif.Polygons Verif.Faces Verif.Mesh
open Verif.Averaging (Val)
open Verif.Quality (massOf corners)
open Verif.Flip (twoSquares)

/-- Surroundings for the examples. -/
def plain : Env where
  lowest := -2 ^ 1024
  top := 2 ^ 1024
  dist a b := |a.x - b.x| + |a.y - b.y|
  order l := l
  nearest _ _ := 0

/-- The number of results for a place. -/
def roomFor (place : Place) (m : Mesh Pt) (s : State) : Nat :=
  match place with
  | .faces => s.facesNodes.length
  | .nodes => m.nodes.length
  | .edges => m.edges.length

/-- The call, on a mesh after its administration. -/
def call (method : Method) (radius : ℚ) (minNum : Nat) (place : Place) (m : Mesh Pt) (ss : List Spot) : Res (List (Val ℚ)) :=
  apiAveraging plain method radius minNum place (roomFor place (runOf m).1 (runOf m).2) (runOf m).1 (runOf m).2 ss

theorem ordinary_of {c : Pt} {ss : List Spot} (h0 : ss ≠ [])
    (h : ∀ s ∈ ss, s.pos.isValid = true ∧ (|s.pos.x| ≤ 1000 ∧ |s.pos.y| ≤ 1000) ∧ |s.value| ≤ 1000 ∧ sqDist c s.pos ≤ 1000) : Ordinary plain c ss where
  some := h0
  order l := List.Perm.refl l
  lowest := by decide +kernel
  valid s hs := (h s hs).1
  finite s hs := Quality.finite_small (h s hs).2.1
  low s hs := lt_of_lt_of_le (by decide +kernel : plain.lowest < -1000) (neg_le_of_abs_le (h s hs).2.2.1)
  high s hs := lt_of_le_of_lt (h s hs).2.2.1 (by decide +kernel : (1000 : ℚ) < plain.top)
  reach s hs := lt_of_le_of_lt (h s hs).2.2.2 (by decide +kernel : (1000 : ℚ) < plain.top)

/-! ## The hypotheses can be met -/

/-- Samples in the two squares. -/
def three : List Spot := [⟨⟨1 / 3, 1 / 4⟩, 3⟩, ⟨⟨5 / 3, 1 / 5⟩, 5⟩, ⟨⟨1 / 4, 1 / 3⟩, 4⟩]

theorem two_run : doAdministrationCartesian twoSquares = .ok ((runOf twoSquares).1, (runOf twoSquares).2) := runOf_eq (by decide) (by decide)

theorem twoSquares_manageable : Manageable twoSquares := manageable_of_check (by decide +kernel)

instance (ring : List Pt) (p : Pt) : Decidable (OffLines ring p) := inferInstanceAs (Decidable (∀ s ∈ sides ring, area2 s.1 s.2 p ≠ 0))
instance (ring : List Pt) : Decidable (RingNodes ring) :=
  inferInstanceAs (Decidable (4 ≤ ring.length ∧ ring.head? = ring.getLast? ∧ ∀ q ∈ ring, q.isValid = true))
instance (m : Mesh Pt) (s : State) (n : Nat) : Decidable (Regular m s n) := by unfold Regular; infer_instance

theorem three_fit : Fit plain 1 (runOf twoSquares).1 (runOf twoSquares).2 three := by
  intro f hf
  have h2 : (runOf twoSquares).2.facesNodes.length = 2 := by decide +kernel
  rw [h2] at hf
  have key : ∀ f < 2, (∀ s ∈ three, s.pos.isValid = true ∧ (|s.pos.x| ≤ 1000 ∧ |s.pos.y| ≤ 1000) ∧ |s.value| ≤ 1000 ∧
      sqDist (massOf (runOf twoSquares).1 (runOf twoSquares).2 f) s.pos ≤ 1000) ∧
      (massOf (runOf twoSquares).1 (runOf twoSquares).2 f).isValid = true ∧
      (∀ p ∈ corners (runOf twoSquares).1 (runOf twoSquares).2 f,
        (scaled (1 * 1) (massOf (runOf twoSquares).1 (runOf twoSquares).2 f) p).isValid = true) ∧
      ∀ t ∈ three, OffLines (scaledRing (1 * 1) (massOf (runOf twoSquares).1 (runOf twoSquares).2 f)
        (corners (runOf twoSquares).1 (runOf twoSquares).2 f)) t.pos := by decide +kernel
  obtain ⟨k1, k2⟩ := key f hf
  exact ⟨ordinary_of (by decide) k1, k2⟩

/-- `face_values_partial`: its hypotheses hold for the two squares, and the values are those expected. -/
example : twoSquares.nodes.length ≤ missing ∧ inBounds twoSquares = true ∧
    doAdministrationCartesian twoSquares = .ok ((runOf twoSquares).1, (runOf twoSquares).2) ∧ (runOf twoSquares).2.facesNodes.length ≤ missing ∧
    (runOf twoSquares).1.nodes ≠ [] ∧ three ≠ [] ∧ Fit plain 1 (runOf twoSquares).1 (runOf twoSquares).2 three ∧
    call .simple 1 1 .faces twoSquares three = .ok [.num (7 / 2), .num 5] :=
  ⟨by decide, by decide, two_run, by decide +kernel, by decide +kernel, by decide, three_fit, by decide +kernel⟩

/-- `levels_partial`: the bounds on the values. -/
example : (∀ t ∈ three, plain.lowest < t.value - 1) ∧ ∀ t ∈ three, |t.value| + 1 < plain.top := by decide +kernel

theorem three_fit_nodes : FitNodes plain 1 (runOf twoSquares).1 (runOf twoSquares).2 three := by
  intro n hn
  have h2 : (runOf twoSquares).1.nodes.length = 6 := by decide +kernel
  rw [h2] at hn
  have key : ∀ n < 6, Regular (runOf twoSquares).1 (runOf twoSquares).2 n ∧
      (∀ s ∈ three, s.pos.isValid = true ∧ (|s.pos.x| ≤ 1000 ∧ |s.pos.y| ≤ 1000) ∧ |s.value| ≤ 1000 ∧
        sqDist (position (runOf twoSquares).1.nodes n) s.pos ≤ 1000) ∧
      (position (runOf twoSquares).1.nodes n).isValid = true ∧ RingNodes (nodeArea 1 (runOf twoSquares).1 (runOf twoSquares).2 n) ∧
      (∃ q ∈ nodeArea 1 (runOf twoSquares).1 (runOf twoSquares).2 n, q ≠ position (runOf twoSquares).1.nodes n) ∧
      ∀ s ∈ three, OffLines (nodeArea 1 (runOf twoSquares).1 (runOf twoSquares).2 n) s.pos := by decide +kernel
  obtain ⟨k1, k2, k3, k4, k5, k6⟩ := key n hn
  exact ⟨k1, ordinary_of (by decide) k2, k3, k4, k5, k6⟩

/-- `node_values_partial`: its hypotheses hold for the two squares. -/
example : Manageable twoSquares ∧ twoSquares.nodes ≠ [] ∧ twoSquares.edges ≠ [] ∧
    doAdministrationCartesian twoSquares = .ok ((runOf twoSquares).1, (runOf twoSquares).2) ∧
    (∀ n < (runOf twoSquares).1.nodes.length, validNode (runOf twoSquares).1.nodes n = true) ∧
    (∀ (e : Nat) p, (runOf twoSquares).1.edges[e]? = some p → p ≠ noEdge → ∃ f, Borders (runOf twoSquares).2 f e) ∧
    FitNodes plain 1 (runOf twoSquares).1 (runOf twoSquares).2 three ∧
    call .simple 1 1 .nodes twoSquares three = .ok [.num (7 / 2), .num (-999), .num 5, .num (-999), .num (-999), .num (-999)] := by
  refine ⟨twoSquares_manageable, by decide, by decide, two_run, by decide +kernel, ?_, three_fit_nodes, by decide +kernel⟩
  intro e p hp _
  have h7 : (runOf twoSquares).1.edges.length = 7 := by decide +kernel
  have he : e < 7 := by rw [← h7]; exact (List.getElem?_eq_some_iff.1 hp).1
  have key : ∀ e < 7, ∃ f < 2, e ∈ (runOf twoSquares).2.facesEdges.getD f [] := by decide +kernel
  obtain ⟨f, hf, hm⟩ := key e he
  have h2 : (runOf twoSquares).2.facesEdges.length = 2 := by decide +kernel
  have hf2 : f < (runOf twoSquares).2.facesEdges.length := by rw [h2]; exact hf
  exact ⟨f, (runOf twoSquares).2.facesEdges[f], List.getElem?_eq_getElem hf2, by simpa [hf2] using hm⟩

/-- `edge_values_partial`: samples at all nodes. -/
example : (runOf twoSquares).1.nodes ≠ [] ∧
    (∀ p ∈ (runOf twoSquares).1.edges, p.1 < (runOf twoSquares).1.nodes.length ∧ p.2 < (runOf twoSquares).1.nodes.length) ∧
    call .max 1 1 .nodes twoSquares [⟨⟨1 / 8, 1 / 8⟩, 2⟩, ⟨⟨7 / 8, 1 / 8⟩, 4⟩] = .ok [.num 2, .num 4, .num (-999), .num (-999), .num (-999), .num (-999)] ∧
    call .max 1 1 .edges twoSquares [⟨⟨1 / 8, 1 / 8⟩, 2⟩, ⟨⟨7 / 8, 1 / 8⟩, 4⟩] =
      .ok [.num 3, .num (-999), .num (-999), .num (-999), .num (-999), .num (-999), .num (-999)] := by decide +kernel

/-- The unit square. -/
def unitSquare : List Pt := ringOf [⟨0, 0⟩, ⟨1, 0⟩, ⟨1, 1⟩, ⟨0, 1⟩]

/-- `closest_when_none_near`: a sample far below the square. -/
example : searchPolygon 1 unitSquare ⟨1 / 2, 1 / 2⟩ = unitSquare ∧ Ordinary plain ⟨1 / 2, 1 / 2⟩ [⟨⟨1 / 3, -1⟩, 3⟩] ∧
    Sound unitSquare ⟨1 / 2, 1 / 2⟩ [⟨⟨1 / 3, -1⟩, 3⟩] ∧ ∀ t ∈ [(⟨⟨1 / 3, -1⟩, 3⟩ : Spot)], ¬ Reached unitSquare ⟨1 / 2, 1 / 2⟩ t.pos := by
  refine ⟨by decide +kernel, ordinary_of (by decide) (by decide +kernel), ⟨by decide +kernel, by decide +kernel, by decide +kernel, by decide +kernel⟩, ?_⟩
  unfold Reached
  decide +kernel

/-! ## Where it falls short -/

/-- The radius is applied twice: the search radius 1.5 reaches a sample at twice the distance of the side. -/
theorem radius_applied_twice :
    call .simple (3 / 2) 1 .faces twoSquares [⟨⟨1 / 2, -1 / 2⟩, 3⟩] = .ok [.num 3, .num 3] ∧
    scaledRing (3 / 2) ⟨1 / 2, 1 / 2⟩ [⟨0, 0⟩, ⟨1, 0⟩, ⟨1, 1⟩, ⟨0, 1⟩] =
      ringOf [⟨-1 / 4, -1 / 4⟩, ⟨5 / 4, -1 / 4⟩, ⟨5 / 4, 5 / 4⟩, ⟨-1 / 4, 5 / 4⟩] := by decide +kernel

/-- A quadrilateral without right angles. -/
def askew : Mesh Pt where
  nodes := [some ⟨0, 0⟩, some ⟨4, 1⟩, some ⟨6, 4⟩, some ⟨1, 3⟩]
  edges := [(0, 1), (1, 2), (2, 3), (3, 0)]
  nodesEdges := List.replicate 4 []
  numEdges := List.replicate 4 0

/-- A sample outside the face but on the extension of a side counts as inside; a bit to either side of this line it does not. -/
theorem extension_of_side_counts :
    corners (runOf askew).1 (runOf askew).2 0 = [⟨0, 0⟩, ⟨4, 1⟩, ⟨6, 4⟩, ⟨1, 3⟩] ∧
    area2 ⟨4, 1⟩ ⟨6, 4⟩ ⟨9 / 2, 9 / 8⟩ < 0 ∧ (∀ q ∈ corners (runOf askew).1 (runOf askew).2 0, 0 ≤ area2 ⟨4, 1⟩ ⟨6, 4⟩ q) ∧
    call .simple 1 1 .faces askew [⟨⟨9 / 2, 9 / 8⟩, 3⟩] = .ok [.num 3] ∧
    call .simple 1 1 .faces askew [⟨⟨9 / 2, 17 / 16⟩, 3⟩] = .ok [.num (-999)] ∧
    call .simple 1 1 .faces askew [⟨⟨9 / 2, 19 / 16⟩, 3⟩] = .ok [.num (-999)] := by decide +kernel

/-- A square standing on a corner. -/
def diamond : Mesh Pt where
  nodes := [some ⟨1, 0⟩, some ⟨0, 1⟩, some ⟨-1, 0⟩, some ⟨0, -1⟩]
  edges := [(0, 1), (1, 2), (2, 3), (3, 0)]
  nodesEdges := List.replicate 4 []
  numEdges := List.replicate 4 0

/-- A sample on a side belongs to the face, but a sample at a corner does not, if this is the rightmost point of the circle. -/
theorem corner_sample_left_out :
    call .simple 1 1 .faces diamond [⟨⟨1 / 2, 1 / 2⟩, 3⟩] = .ok [.num 3] ∧ call .simple 1 1 .faces diamond [⟨⟨1, 0⟩, 3⟩] = .ok [.num (-999)] := by
  decide +kernel

/-- If no sample is required, a face without samples gets a NaN instead of the missing value, if there is a sample in the circle around it. -/
theorem nothing_required_gives_nan :
    call .simple 1 0 .faces twoSquares [⟨⟨1 / 2, -1 / 8⟩, 3⟩] = .ok [.nan, .num (-999)] := by decide +kernel

/-- Two samples that ask for one level each, one per square: the first square is refined, the second one is not, because its sample lies in the circle
around the first square and has been used up there. -/
theorem neighbour_uses_up_sample : ∃ vs ss, onFaces plain ⟨.max, 1, false, true, 1⟩ (runOf twoSquares).1.nodes
      ((runOf twoSquares).2.facesNodes.zip (around (runOf twoSquares).1 (runOf twoSquares).2).masses)
      [⟨⟨1 / 2, 1 / 3⟩, 1⟩, ⟨⟨11 / 10, 2 / 5⟩, 1⟩] = .ok (vs, ss) ∧ refines vs 0 = true ∧ refines vs 1 = false ∧
    call .max 1 1 .faces twoSquares [⟨⟨1 / 2, 1 / 3⟩, 1⟩, ⟨⟨11 / 10, 2 / 5⟩, 1⟩] = .ok [.num 1, .num 1] :=
  ⟨[.num 1, .num 0], [⟨⟨1 / 2, 1 / 3⟩, 0⟩, ⟨⟨11 / 10, 2 / 5⟩, 0⟩], by decide +kernel, by decide +kernel, by decide +kernel, by decide +kernel⟩

/-- The closest sample is to be used if there is none in the face; it is not if it lies in the circle around the face, although it is if it is
further away. -/
theorem closest_not_used :
    onPolygon plain ⟨.simple, 1, true, false, 1⟩ [⟨⟨1 / 2, -1 / 8⟩, 3⟩] unitSquare ⟨1 / 2, 1 / 2⟩ = .ok (.num (-999), [0]) ∧
    onPolygon plain ⟨.simple, 1, true, false, 1⟩ [⟨⟨1 / 2, -1⟩, 3⟩] unitSquare ⟨1 / 2, 1 / 2⟩ = .ok (.num 3, [0]) := by decide +kernel

/-- Two squares and a deleted node. -/
def withHole : Mesh Pt :=
  { twoSquares with nodes := twoSquares.nodes ++ [none], nodesEdges := List.replicate 7 [], numEdges := List.replicate 7 0 }

/-- With a deleted node, values at the nodes are undefined: the first point of an empty polygon is read. -/
theorem deleted_node_undefined : Manageable withHole ∧ call .simple 1 1 .nodes withHole three = .ub :=
  ⟨manageable_of_check (by decide +kernel), by decide +kernel⟩

/-- Two squares and an edge without face. -/
def antenna : Mesh Pt where
  nodes := twoSquares.nodes ++ [some ⟨3, 2⟩]
  edges := twoSquares.edges ++ [(5, 6)]
  nodesEdges := List.replicate 7 []
  numEdges := List.replicate 7 0

/-- With an edge that has no face, values at the nodes are undefined: the list of faces around its ends is too short. -/
theorem edge_without_face_undefined : Manageable antenna ∧ call .simple 1 1 .nodes antenna three = .ub :=
  ⟨manageable_of_check (by decide +kernel), by decide +kernel⟩

/-- Two squares and a deleted edge. -/
def withGap : Mesh Pt := { twoSquares with edges := noEdge :: twoSquares.edges }

/-- With a deleted edge, values at the edges are undefined, although those at the nodes are found. -/
theorem deleted_edge_undefined : Manageable withGap ∧ call .simple 1 1 .edges withGap three = .ub ∧
    call .simple 1 1 .nodes withGap three = .ok [.num (7 / 2), .num (-999), .num 5, .num (-999), .num (-999), .num (-999)] :=
  ⟨manageable_of_check (by decide +kernel), by decide +kernel, by decide +kernel⟩

end Verif.Sampling
