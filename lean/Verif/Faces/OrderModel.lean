import Verif.Faces.Model
import Verif.Polygons.AreaModel
/-!
# Model: edges around a node, and faces of a Cartesian mesh

Models `Mesh::SortEdgesInCounterClockWiseOrder`, `libs/MeshKernel/src/Mesh.cpp:782-857`, for the Cartesian projection.
Angles are compared without computing them.
-/
namespace Verif.Faces
open Verif.Mesh Verif.Polygons

/-- The part of `(-π, π]` that `atan2` is in: below 0, 0, between 0 and π, π. -/
def rank (v : Pt) : Nat := if v.y < 0 then 0 else if 0 < v.y then 2 else if 0 < v.x then 1 else 3

def cross (v w : Pt) : ℚ := v.x * w.y - v.y * w.x

/-- `std::atan2(v.y, v.x) < std::atan2(w.y, w.x)`, for vectors other than zero. -/
def angleLt (v w : Pt) : Bool := decide (rank v < rank w) || (rank v == rank w && decide (0 < cross v w))

/-- `m_minimumDeltaCoordinate`, `libs/MeshKernel/include/MeshKernel/Mesh.hpp:500` -/
def minimumDelta : ℚ := 1 / 100000000000000

/-- The vector whose angle is `phi`, `Mesh.cpp:808-829`. -/
def phiVector (d : Pt) : Pt :=
  if |d.x| < minimumDelta ∧ |d.y| < minimumDelta then (if d.y < 0 then ⟨0, -1⟩ else ⟨0, 1⟩) else d

/-- Coordinates of a node; invalid nodes have the missing value. -/
def position (nodes : List (Option Pt)) (n : Nat) : Pt := (nodes[n]?.join).getD ⟨-999, -999⟩

/-- The vector between the ends of edge `e`, `Mesh.cpp:796-812`: `GetDx(m_nodes[secondNode], m_nodes[firstNode])` is first minus second.
Listed edges are not deleted, so the test of line 801 is left out. -/
def edgeDelta (nodes : List (Option Pt)) (edges : List Edge) (n e : Nat) : Pt :=
  let p := edges.getD e noEdge
  let first := if p.2 = n then n else p.1
  let second := if p.2 = n then p.1 else p.2
  delta (position nodes second) (position nodes first)

/-- `edgeAngles[i1] < edgeAngles[i2]`, `Mesh.cpp:831-840, 850`: angles from `phi0` on, those below it come after a full turn. -/
def relLt (u v w : Pt) : Bool := if angleLt v u = angleLt w u then angleLt v w else angleLt w u

/-- Rearrangement of the edges of one node, `Mesh.cpp:791-855`.  Simplified: `std::sort` may place edges in the same direction
in any order. -/
def ccwOrder (nodes : List (Option Pt)) (edges : List Edge) (n : Nat) (l : List Nat) : List Nat :=
  let phi := fun e => phiVector (edgeDelta nodes edges n e)
  l.insertionSort (fun a b => relLt (phi (l.headD 0)) (phi b) (phi a) = false)

/-- `direction == TraversalDirection::Clockwise`, `Mesh2D.cpp:463-468`, Cartesian. -/
def clockwise (nodes : List (Option Pt)) (ns : List Nat) : Bool :=
  match faceAreaIndexed (nodes.map (fun p => p.getD ⟨-999, -999⟩)) ns false with
  | .ok r => r.2.2 == .clockwise
  | _ => false

/-- `DoAdministration` in the Cartesian projection, `Mesh2D.cpp:153-168`, up to the search for the faces. -/
def doAdministrationCartesian (m : Mesh Pt) : Res (Mesh Pt × State) := do
  let m1 ← setUnconnectedInvalid m
  doAdministration (ccwOrder m1.nodes m1.edges) clockwise m

end Verif.Faces
