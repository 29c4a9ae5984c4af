import Verif.Faces.OrderModel
import Verif.Polygons.ContainsSpec
/-!
# Which face a point lies in

`Mesh2D::PointFaceIndices`, used to connect 1d networks with 2d meshes (`Contacts.cpp:40, 162, 338`) and to
locate land boundaries (`LandBoundaries.cpp:60`).  Cartesian projection; coordinates are rational.
-/
namespace Verif.Locate
open Verif.Mesh Verif.Faces
open Verif.Polygons (Pt inPolygonNodes)

/-- The middle of an edge, `ComputeEdgeCenters`, `libs/MeshKernel/src/Operations.cpp:1474-1494`.  A deleted
edge gets an invalid point there, which the search tree leaves out (`RTree.hpp:191`).  Here an edge with an
invalid end has no middle either; in the code such edges are deleted by the administration that comes first. -/
def centre (m : Mesh Pt) (e : Nat) : Option Pt :=
  match m.edges[e]? with
  | some (a, b) =>
    match m.nodes[a]?.join, m.nodes[b]?.join with
    | some p, some q => some ⟨(p.x + q.x) * (1 / 2), (p.y + q.y) * (1 / 2)⟩
    | _, _ => none
  | none => none

/-- The nodes of a list in turn, `libs/MeshKernel/src/Mesh2D.cpp:785-788`. -/
def positions (m : Mesh Pt) : List Nat → Res (List Pt)
  | [] => .ok []
  | n :: ns => do
    let _ ← vget m.nodes n
    let ps ← positions m ns
    .ok (position m.nodes n :: ps)

/-- `ComputeFaceClosedPolygon`, `libs/MeshKernel/src/Mesh2D.cpp:779-791`; the number of edges of a face is the
length of its list of edges (`Mesh.hpp:166`). -/
def closedPolygon (m : Mesh Pt) (s : State) (f : Nat) : Res (List Pt) := do
  let es ← vget s.facesEdges f
  let ns ← vget s.facesNodes f
  if ns.length < es.length then .ub
  else do
    let ps ← positions m (ns.take es.length)
    match ps with
    | [] => .ub
    | p :: rest => .ok (p :: rest ++ [p])

/-- The faces next to the edge, in turn, `libs/MeshKernel/src/Mesh2D.cpp:1900-1910`: the first one that holds
the point. -/
def tryFaces (m : Mesh Pt) (s : State) (p : Pt) : List Nat → Res Nat
  | [] => .ok missing
  | f :: fs => do
    let ring ← closedPolygon m s f
    if inPolygonNodes ring p then .ok f else tryFaces m s p fs

/-- The places of `m_edgesFaces[e]` below `m_edgesNumFaces[e]`; the array has two places. -/
def placesOf (c : Nat) (f : Nat × Nat) : Res (List Nat) :=
  match c with
  | 0 => .ok []
  | 1 => .ok [f.1]
  | 2 => .ok [f.1, f.2]
  | _ => .ub

/-- One round of the loop, `libs/MeshKernel/src/Mesh2D.cpp:1890-1911`, when the search finds edge `e`. -/
def pointFace (m : Mesh Pt) (s : State) (p : Pt) (e : Nat) : Res Nat := do
  let c ← vget s.numFaces e
  let f ← vget s.edgesFaces e
  let fs ← placesOf c f
  tryFaces m s p fs

/-- `PointFaceIndices`, `libs/MeshKernel/src/Mesh2D.cpp:1882-1913`.  `search` is `FindLocationIndex` for edges
(`Mesh.cpp:673-710`), which throws when there is no edge. -/
def pointFaces (m : Mesh Pt) (s : State) (search : Pt → Res Nat) : List Pt → Res (List Nat)
  | [] => .ok []
  | p :: ps => do
    let e ← search p
    let f ← pointFace m s p e
    let fs ← pointFaces m s search ps
    .ok (f :: fs)

end Verif.Locate
