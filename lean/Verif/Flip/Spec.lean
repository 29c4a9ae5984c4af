import Verif.Flip.Model
import Verif.Faces.Spec
import Verif.Mesh.Spec
import Verif.Cross.SegmentSpec
import Mathlib.Algebra.BigOperators.Ring.Nat
import Mathlib.Logic.Relation
/-!
# Specification: flipping of edges
-/
namespace Verif.Flip
open Verif.Mesh Verif.Faces
open Verif.Polygons (Pt)

/-- The number of edges at node `n`. -/
def degree (edges : List Edge) (n : Nat) : Nat := edges.countP (fun p => decide (p.1 = n) || decide (p.2 = n))

/-- The two nodes are joined by an edge. -/
def Joined (edges : List Edge) (a b : Nat) : Prop := ∃ (e : Nat) (p : Edge), edges[e]? = some p ∧ Joins p a b

/-- Edge `e` is the common side of two triangles of edges of the mesh, and the line between their other corners meets it. -/
structure Diagonal (nodes : List (Option Pt)) (edges : List Edge) (e a b l r : Nat) : Prop where
  edge : edges[e]? = some (a, b)
  valid : validNode nodes a = true ∧ validNode nodes b = true ∧ validNode nodes l = true ∧ validNode nodes r = true
  distinct : a ≠ b ∧ a ≠ l ∧ a ≠ r ∧ b ≠ l ∧ b ≠ r ∧ l ≠ r
  left : Joined edges a l ∧ Joined edges b l
  right : Joined edges a r ∧ Joined edges b r
  meet : Cross.Meet (position nodes a) (position nodes b) (position nodes l) (position nodes r)
  apart : Cross.Apart (position nodes a) (position nodes b) (position nodes l) (position nodes r)

/-- How far the numbers of edges are from the wanted ones. -/
def energy (want : Nat → Int) (numNodes : Nat) (edges : List Edge) : Int :=
  ∑ n ∈ Finset.range numNodes, ((degree edges n : Int) - want n) ^ 2

/-- The edges of a mesh and the corners of its faces. -/
structure Picture where
  edges : List Edge
  faces : List (List Nat)

/-- The edge between two triangles is replaced by the one between their other corners, and this brings the numbers of edges nearer to the wanted
ones. -/
def Flipped (nodes : List (Option Pt)) (want : Nat → Int) (p p' : Picture) : Prop :=
  ∃ e a b l r f g nf ng, Diagonal nodes p.edges e a b l r ∧ f ≠ g ∧ p.faces[f]? = some nf ∧ p.faces[g]? = some ng ∧
    List.Perm nf [a, b, l] ∧ List.Perm ng [a, b, r] ∧
    p' = ⟨p.edges.set e (l, r), (p.faces.set f [l, r, a]).set g [l, r, b]⟩ ∧
    energy want nodes.length p'.edges < energy want nodes.length p.edges

/-- The lists of faces and edges agree: faces are closed polygons, the faces of each edge are those it is a side of. -/
structure Linked (edges : List Edge) (s : State) : Prop where
  lengths : s.facesNodes.length = s.facesEdges.length
  proper : ∀ (f : Nat) ns es, s.facesNodes[f]? = some ns → s.facesEdges[f]? = some es → Proper edges ns es
  numFaces : s.numFaces.length = edges.length
  edgesFaces : s.edgesFaces.length = edges.length
  faces : ∀ e, e < edges.length → ∃ c p l, s.numFaces[e]? = some c ∧ s.edgesFaces[e]? = some p ∧ Places c p l ∧ l.Nodup ∧
    ∀ f, f ∈ l ↔ Borders s f e

/-- The tables of a mesh with faces are exact. -/
structure Exact (m : Mesh Pt) (s : State) : Prop where
  nodesFit : m.nodes.length ≤ missing
  ends : ∀ (e : Nat) p, m.edges[e]? = some p → p = noEdge ∨ (validNode m.nodes p.1 = true ∧ validNode m.nodes p.2 = true ∧ p.1 ≠ p.2)
  used : ∀ n, validNode m.nodes n = true → ∃ (e : Nat) (p : Edge), m.edges[e]? = some p ∧ (p.1 = n ∨ p.2 = n)
  lists : m.nodesEdges.length = m.nodes.length
  counts : m.numEdges = m.nodesEdges.map List.length
  nodup : ∀ (n : Nat) l, m.nodesEdges[n]? = some l → l.Nodup
  listed : ∀ (n : Nat) l, m.nodesEdges[n]? = some l → ∀ e, e ∈ l ↔ ∃ p, m.edges[e]? = some p ∧ (p.1 = n ∨ p.2 = n)
  linked : Linked m.edges s
  facesFit : s.facesNodes.length ≤ missing
  corners : ∀ (f : Nat) ns, s.facesNodes[f]? = some ns → ∀ n ∈ ns, validNode m.nodes n = true

/-- Edge `e` lies between two triangles, and would be better placed between their other corners. -/
def BetterAt (want : Nat → Int) (m : Mesh Pt) (s : State) (e : Nat) : Prop :=
  ∃ a b l r f g nf ng, m.edges[e]? = some (a, b) ∧ s.edgesFaces[e]? = some (f, g) ∧ s.facesNodes[f]? = some nf ∧ s.facesNodes[g]? = some ng ∧
    List.Perm nf [a, b, l] ∧ List.Perm ng [a, b, r] ∧
    Cross.Meet (position m.nodes a) (position m.nodes b) (position m.nodes l) (position m.nodes r) ∧
    Cross.Apart (position m.nodes a) (position m.nodes b) (position m.nodes l) (position m.nodes r) ∧
    energy want m.nodes.length (m.edges.set e (l, r)) < energy want m.nodes.length m.edges

/-- The number of edges at node `n` that have one face. -/
def rim (edges : List Edge) (numFaces : List Nat) (n : Nat) : Nat :=
  ((List.range edges.length).filter (fun e => decide (numFaces[e]? = some 1) &&
    (decide ((edges[e]?.getD noEdge).1 = n) || decide ((edges[e]?.getD noEdge).2 = n)))).length

/-- The number of edges a node should have: six inside, three at a corner, four elsewhere on the boundary.  A corner has two edges, or more than
two on the boundary. -/
def ideal (edges : List Edge) (numFaces : List Nat) (n : Nat) : Int :=
  if degree edges n < 2 ∨ rim edges numFaces n = 0 then 6
  else if degree edges n = 2 ∨ 2 < rim edges numFaces n then 3
  else 4

/-- The numbers of edges aimed at: the ideal ones, if each edge has a face. -/
def Wants (m : Mesh Pt) (s : State) (want : Nat → Int) : Prop :=
  (∀ n, want n = 3 ∨ want n = 4 ∨ want n = 6) ∧
    ((∀ (e : Nat) p, m.edges[e]? = some p → p ≠ noEdge → s.numFaces[e]? ≠ some 0) →
      ∀ n, n < m.nodes.length → want n = ideal m.edges s.numFaces n)

/-- How the flipping of the edges of mesh `m` with faces `s` may end.  It is undefined only if flips can lead to a node of more than 16 edges.  It fails
only after ten flips.  Otherwise the edges are those after some flips, in a mesh with the same nodes; no flip is left that would help, unless
some face is not a triangle. -/
def Outcome (want : Nat → Int) (m : Mesh Pt) (s : State) : Res Ending → Prop
  | .throw => False
  | .ub => ∃ p' n, Relation.ReflTransGen (Flipped m.nodes want) ⟨m.edges, s.facesNodes⟩ p' ∧ n < m.nodes.length ∧
      16 < degree p'.edges n
  | .ok (.failed m') => m'.nodes = m.nodes ∧ (∃ fs, Relation.ReflTransGen (Flipped m.nodes want) ⟨m.edges, s.facesNodes⟩ ⟨m'.edges, fs⟩) ∧
      energy want m.nodes.length m'.edges + 10 ≤ energy want m.nodes.length m.edges
  | .ok (.done _ m' left) => m'.nodes = m.nodes ∧ ∃ s', Linked m'.edges s' ∧
      Relation.ReflTransGen (Flipped m.nodes want) ⟨m.edges, s.facesNodes⟩ ⟨m'.edges, s'.facesNodes⟩ ∧
      (left = false → ∀ e, ¬ BetterAt want m' s' e) ∧
      (left = true → ∃ (f : Nat) (ns : List Nat), s.facesNodes[f]? = some ns ∧ ns.length ≠ 3)

/-- The point is in the triangle, or on its sides. -/
def InTriangle (p a b c : Pt) : Prop :=
  ∃ u v w : ℚ, 0 ≤ u ∧ 0 ≤ v ∧ 0 ≤ w ∧ u + v + w = 1 ∧ p.x = u * a.x + v * b.x + w * c.x ∧ p.y = u * a.y + v * b.y + w * c.y

end Verif.Flip
