import Verif.SmallFlow.Model
import Verif.Quality.Spec
import Verif.Delete.Spec
import Verif.MergeClose.Spec
/-!
# Specification: small flow edges and small triangles

In terms of the faces handed to the user.
-/
namespace Verif.SmallFlow
open Verif.Mesh Verif.Faces Verif.Quality
open Verif.Polygons (Pt)

/-- The edge is a side of exactly one face. -/
def BoundaryEdge (s : State) (e : Nat) : Prop := ∃ f, Borders s f e ∧ ∀ g, Borders s g e → g = f

/-- The face other than `f` with the side `e`. -/
def across (s : State) (f e : Nat) : Option Nat :=
  (List.range s.facesEdges.length).find? (fun g => decide (g ≠ f) && (s.facesEdges.getD g []).contains e)

/-- The faces with more than three corners next to face `f`, one for each side. -/
def bigNeighbours (s : State) (f : Nat) : List Nat :=
  ((s.facesEdges.getD f []).filterMap (across s f)).filter (fun g => decide (3 < (s.facesNodes.getD g []).length))

/-- Face `f` is a triangle with a side at the boundary, and its area is at most the given fraction of the mean area of the faces next to it that are
no triangles. -/
structure Small (m : Mesh Pt) (s : State) (fraction : ℚ) (f : Nat) : Prop where
  boundary : ∃ e, Borders s f e ∧ BoundaryEdge s e
  neighbours : bigNeighbours s f ≠ []
  area : areaOf m s f ≤ fraction * (((bigNeighbours s f).map (areaOf m s)).sum / (bigNeighbours s f).length)

/-- The square of the cosine of the angle at `o` between the directions to `p` and `q`. -/
def cosSq (o p q : Pt) : ℚ := dotAt o p q ^ 2 / (gap o p * gap o q)

/-- The corner of the triangle `x y z` with the angle nearest to a right one, the first one if there are several, followed by the corners before and
after it. -/
def squarest (m : Mesh Pt) (x y z : Nat) : Nat × Nat × Nat :=
  let cx := cosSq (position m.nodes x) (position m.nodes y) (position m.nodes z)
  let cy := cosSq (position m.nodes y) (position m.nodes z) (position m.nodes x)
  let cz := cosSq (position m.nodes z) (position m.nodes x) (position m.nodes y)
  if cx ≤ cy ∧ cx ≤ cz then (x, z, y) else if cy ≤ cz then (y, x, z) else (z, y, x)

/-- The nodes `p`, `a` and `c` are the corners of a small triangle; the angle at `p` is the one nearest to a right one, and the side from `a` to `c` is at
the boundary. -/
def SmallTriangle (m : Mesh Pt) (s : State) (fraction : ℚ) (p a c : Nat) : Prop :=
  ∃ (f x y z : Nat), s.facesNodes[f]? = some [x, y, z] ∧ Small m s fraction f ∧ squarest m x y z = (p, a, c) ∧
    ∃ e, Borders s f e ∧ joins (edgeAt m e) a c ∧ BoundaryEdge s e

open Classical in
/-- The number of edges at node `n` that are not at the boundary. -/
noncomputable def innerEdges (m : Mesh Pt) (s : State) (n : Nat) : Nat :=
  (List.range m.edges.length).countP (fun e => decide (touches (edgeAt m e) n) && decide (¬ BoundaryEdge s e))

/-- Node `n` is to be pulled onto node `p`: it is an end of the side at the boundary of a small triangle with the corner `p`, and has one edge that is not at
the boundary. -/
def Into (m : Mesh Pt) (s : State) (fraction : ℚ) (n p : Nat) : Prop :=
  ∃ a c, SmallTriangle m s fraction p a c ∧ (n = a ∨ n = c) ∧ innerEdges m s n = 1

/-- No corner onto which nodes are pulled is an end of the side at the boundary of another small triangle. -/
def Apart (m : Mesh Pt) (s : State) (fraction : ℚ) : Prop :=
  ∀ p a c p' a' c', SmallTriangle m s fraction p a c → SmallTriangle m s fraction p' a' c' → p ≠ a' ∧ p ≠ c'

open Classical in
/-- The number of drawn edges at `n` and the nodes that are to be pulled onto it, all together. -/
noncomputable def gathered (m : Mesh Pt) (s : State) (fraction : ℚ) (n : Nat) : Nat :=
  ∑ i ∈ (Finset.range m.nodes.length).filter (fun i => i = n ∨ Into m s fraction i n), MergeClose.degree m i

/-- The mesh `m'` is `m` with every node `i` pulled onto the node `rep i`:
* the nodes that are to be pulled go to one of their targets, the others stay;
* two nodes are joined by a drawn edge exactly if they differ and edges between nodes pulled onto them were drawn before;
* a node keeps its position if it stays and has an edge left, and is gone otherwise. -/
structure Pulled (into : Nat → Nat → Prop) (m m' : Mesh Pt) (rep : Nat → Nat) : Prop where
  goes : ∀ i, (∃ p, into i p) → into i (rep i)
  stays : ∀ i, (¬ ∃ p, into i p) → rep i = i
  drawn : ∀ x y, MergeClose.Drawn m' x y ↔ x ≠ y ∧ ∃ u v, MergeClose.Drawn m u v ∧ rep u = x ∧ rep v = y
  numNodes : m'.nodes.length = m.nodes.length
  kept : ∀ i : Nat, rep i = i → (∃ y, MergeClose.Drawn m' i y) → (m'.nodes[i]?).join = (m.nodes[i]?).join
  gone : ∀ i : Nat, rep i ≠ i ∨ (¬ ∃ y, MergeClose.Drawn m' i y) → (m'.nodes[i]?).join = none

end Verif.SmallFlow
