import Verif.Sampling.Model
import Verif.Cross.SegmentModel
import Verif.Polygons.ContainsModel
/-!
# Model: interpolation in a triangulation of the samples

Models `TriangulationInterpolation::Compute` (`libs/MeshKernel/src/TriangulationInterpolation.cpp`) with `TriangulationWrapper::BuildTriangulation`,
`LinearInterpolationInTriangle` and the call of the interface, for the Cartesian projection in exact arithmetic.  The triangulation itself comes from another
library (Triangle): its tables are an argument, with indices counted from zero.  So is the answer of the search tree.
-/
namespace Verif.TriInterp
open Verif.Mesh
open Verif.Polygons (Pt)
open Verif.Sampling (Spot)

/-- What the triangulation returns, `libs/MeshKernel/src/TriangulationWrapper.cpp:50-79`: the nodes and the edges of each face, the nodes of each edge. -/
structure Tables where
  faceNodes : List (Nat × Nat × Nat)
  faceEdges : List (Nat × Nat × Nat)
  edgeNodes : List (Nat × Nat)
  deriving DecidableEq, Repr

/-- The three entries in order. -/
def three (t : Nat × Nat × Nat) : List Nat := [t.1, t.2.1, t.2.2]

/-- The body of the loop over the edges of a face, `TriangulationWrapper.cpp:88-98`. -/
def note (f e : Nat) (ef : List (Nat × Nat)) : Res (List (Nat × Nat)) := do
  let p ← vget ef e
  if p.1 = missing then vset ef e (f, p.2) else vset ef e (p.1, f)

/-- The loop over the edges of a face, `TriangulationWrapper.cpp:86-99`. -/
def noteAll (f : Nat) : List Nat → List (Nat × Nat) → Res (List (Nat × Nat))
  | [], ef => .ok ef
  | e :: es, ef => do
    let ef1 ← note f e ef
    noteAll f es ef1

/-- The loop over the faces, `TriangulationWrapper.cpp:83-100`. -/
def noteFaces : Nat → List (Nat × Nat × Nat) → List (Nat × Nat) → Res (List (Nat × Nat))
  | _, [], ef => .ok ef
  | f, t :: ts, ef => do
    let ef1 ← noteAll f (three t) ef
    noteFaces (f + 1) ts ef1

/-- `m_edgesFaces`, `TriangulationWrapper.cpp:81-100`. -/
def edgesFaces (T : Tables) : Res (List (Nat × Nat)) :=
  noteFaces 0 T.faceEdges (List.replicate T.edgeNodes.length (missing, missing))

/-- A triangle: its corners with their values, `TriangulationInterpolation.cpp:79-86`; the first corner is repeated at the end where it is used. -/
structure Tri where
  a : Spot
  b : Spot
  c : Spot
  deriving DecidableEq, Repr

/-- `triangles[f]`. -/
def Tri.ring (t : Tri) : List Pt := [t.a.pos, t.b.pos, t.c.pos, t.a.pos]

/-- `ComputeAverageCoordinate`, `libs/MeshKernel/src/Operations.cpp:1523-1558`, of valid points. -/
def average (ps : List Pt) : Pt := ⟨(ps.map (·.x)).sum / ps.length, (ps.map (·.y)).sum / ps.length⟩

/-- `trianglesCircumcenters[f]`, `TriangulationInterpolation.cpp:88`. -/
def Tri.centre (t : Tri) : Pt := average t.ring

/-- The corners of one face, `TriangulationInterpolation.cpp:79-84`. -/
def triangle (ss : List Spot) (t : Nat × Nat × Nat) : Res Tri := do
  let a ← vget ss t.1
  let b ← vget ss t.2.1
  let c ← vget ss t.2.2
  .ok ⟨a, b, c⟩

/-- The loop over the faces, `TriangulationInterpolation.cpp:76-89`. -/
def triangles (ss : List Spot) : List (Nat × Nat × Nat) → Res (List Tri)
  | [] => .ok []
  | t :: ts => do
    let x ← triangle ss t
    let xs ← triangles ss ts
    .ok (x :: xs)

/-- What the search reads. -/
structure Data where
  samples : List Spot
  tris : List Tri
  faceEdges : List (Nat × Nat × Nat)
  edgeNodes : List (Nat × Nat)
  edgesFaces : List (Nat × Nat)

/-- Whether the line from the centre to the location cuts an edge, `TriangulationInterpolation.cpp:140-152`. -/
def cuts (D : Data) (c p : Pt) (e : Nat) : Res Bool := do
  let k ← vget D.edgeNodes e
  let a ← vget D.samples k.1
  let b ← vget D.samples k.2
  .ok (Cross.crossing c p a.pos b.pos)

/-- The loop over the edges of a triangle, `TriangulationInterpolation.cpp:130-159`: the triangle to go on with. -/
def leave (D : Data) (c p : Pt) (t : Nat) : List Nat → Res Nat
  | [] => .ok t
  | e :: es => do
    let f ← vget D.edgesFaces e
    if f.2 = 0 then leave D c p t es
    else do
      let b ← cuts D c p e
      if b then .ok (if t = f.1 then f.2 else f.1) else leave D c p t es

/-- The search, `TriangulationInterpolation.cpp:115-160`, with so many rounds left: the triangle that contains the location. -/
def search (D : Data) (p : Pt) : Nat → Nat → Res (Option Nat)
  | 0, _ => .ok none
  | k + 1, t =>
    if t ≠ missing ∧ t < D.tris.length then do
      let x ← vget D.tris t
      if Polygons.inPolygonNodes x.ring p then .ok (some t)
      else do
        let es ← vget D.faceEdges t
        let t1 ← leave D x.centre p t (three es)
        search D p k t1
    else .ok none

/-- `LinearInterpolationInTriangle`, `Operations.cpp:1496-1521`, Cartesian; `none` is the missing value. -/
def linear (x : Tri) (p : Pt) : Option ℚ :=
  let a11 := x.b.pos.x - x.a.pos.x
  let a21 := x.b.pos.y - x.a.pos.y
  let a12 := x.c.pos.x - x.a.pos.x
  let a22 := x.c.pos.y - x.a.pos.y
  let b1 := p.x - x.a.pos.x
  let b2 := p.y - x.a.pos.y
  let det := a11 * a22 - a12 * a21
  if |det| < 1 / 1000000000000 then none
  else some (x.a.value + (a22 * b1 - a12 * b2) / det * (x.b.value - x.a.value) + (-a21 * b1 + a11 * b2) / det * (x.c.value - x.a.value))

/-- The value at one location, `TriangulationInterpolation.cpp:100-166`; `nearest` is the answer of the search tree of the centres. -/
def valueAt (nearest : List Pt → Pt → Option Nat) (D : Data) (p : Pt) : Res (Option ℚ) :=
  if !(Polygons.boundingBox (D.samples.map (·.pos))).contains p then .ok none
  else
    match nearest (D.tris.map Tri.centre) p with
    | none => .ok none
    | some t => do
      let r ← search D p (2 * D.tris.length) t
      match r with
      | none => .ok none
      | some t => do
        let x ← vget D.tris t
        .ok (linear x p)

/-- The loop over the locations, `TriangulationInterpolation.cpp:98-167`. -/
def valuesAt (nearest : List Pt → Pt → Option Nat) (D : Data) : List Pt → Res (List (Option ℚ))
  | [] => .ok []
  | p :: ps => do
    let v ← valueAt nearest D p
    let vs ← valuesAt nearest D ps
    .ok (v :: vs)

/-- `Compute`, `TriangulationInterpolation.cpp:44-168`. -/
def compute (nearest : List Pt → Pt → Option Nat) (T : Tables) (ss : List Spot) (locations : List Pt) : Res (List (Option ℚ)) :=
  if ss.isEmpty then .throw
  else do
    let ef ← edgesFaces T
    if T.faceNodes.isEmpty then .throw
    else do
      let ts ← triangles ss T.faceNodes
      valuesAt nearest ⟨ss, ts, T.faceEdges, T.edgeNodes, ef⟩ locations

/-- `Location`, `libs/MeshKernel/include/MeshKernel/Definitions.hpp:74-80`, as far as there are locations, `libs/MeshKernel/src/Mesh.cpp:903-939`. -/
inductive Where where
  | nodes
  | edges
  | faces
  deriving DecidableEq, Repr

/-- A node: an invalid one has -999 twice. -/
def place : Option Pt → Pt
  | none => ⟨-999, -999⟩
  | some p => p

/-- The middle of an edge, `Mesh.cpp:917-928`. -/
def middle (nodes : List (Option Pt)) (e : Edge) : Res Pt :=
  if e.1 ≠ missing ∧ e.2 ≠ missing then do
    let a ← vget nodes e.1
    let b ← vget nodes e.2
    .ok ⟨((place a).x + (place b).x) * (1 / 2), ((place a).y + (place b).y) * (1 / 2)⟩
  else .ok ⟨-999, -999⟩

/-- The middles of all edges, `Mesh.cpp:917-928`. -/
def middles (nodes : List (Option Pt)) : List Edge → Res (List Pt)
  | [] => .ok []
  | e :: es => do
    let p ← middle nodes e
    let ps ← middles nodes es
    .ok (p :: ps)

/-- `ComputeLocations`, `Mesh.cpp:903-939`; `centres` are the mass centres of the faces. -/
def locations (m : Mesh Pt) (centres : List Pt) : Where → Res (List Pt)
  | .nodes => .ok (m.nodes.map place)
  | .edges => middles m.nodes m.edges
  | .faces => .ok centres

/-- `mkernel_mesh2d_triangulation_interpolation`, `libs/MeshKernelApi/src/MeshKernel.cpp:5184-5220`, with `ConvertSampleVectorToGeometryList`,
`libs/MeshKernelApi/include/MeshKernelApi/Utils.hpp:202-220`: the values written, `room` of them. -/
def call (nearest : List Pt → Pt → Option Nat) (T : Tables) (m : Mesh Pt) (centres : List Pt) (w : Where) (room : Nat) (ss : List Spot) :
    Res (List (Option ℚ)) :=
  if m.nodes.isEmpty then .throw
  else if ss.isEmpty then .throw
  else do
    let ls ← locations m centres w
    let vs ← compute nearest T ss ls
    if vs.length < room then .throw else .ok (vs.take room)

end Verif.TriInterp
