import Verif.Faces.OrderModel
import Verif.Cross.SegmentModel
import Verif.Polygons.ContainsModel
import Mathlib.Analysis.Real.Sqrt
/-!
# Model: orthogonality, smoothness, lengths of edges, obtuse triangles and short flow edges

Models `GetOrthogonality`, `GetSmoothness`, `ComputeEdgesLengths`, `GetObtuseTrianglesCenters`, `GetEdgesCrossingSmallFlowEdges` and
`GetFlowEdgesCenters`, with the centres and areas of the faces they read, for the Cartesian projection, and the calls of the interface.  Coordinates are
rational, cosines and lengths are real numbers.  The missing value -999 is `none`.
-/
namespace Verif.Quality
open Verif.Mesh Verif.Faces
open Verif.Polygons (Pt)

/-! ## The centres of the faces -/

/-- `CircumcenterOfTriangle`, `libs/MeshKernel/src/Operations.cpp:1104-1124`, Cartesian. -/
def circumcentre (p q r : Pt) : Pt :=
  let dx2 := q.x - p.x
  let dy2 := q.y - p.y
  let dx3 := r.x - p.x
  let dy3 := r.y - p.y
  let den := dy2 * dx3 - dy3 * dx2
  let z := if |den| > 0 then (dx2 * (dx2 - dx3) + dy2 * (dy2 - dy3)) / den else 0
  ⟨p.x + 1 / 2 * (dx3 - z * dy3), p.y + 1 / 2 * (dy3 + z * dx3)⟩

/-- The mean of the corners of a triangle, `Mesh2D.cpp:842-849`. -/
def mean (p q r : Pt) : Pt := ⟨(p.x + q.x + r.x) / 3, (p.y + q.y + r.y) / 3⟩

/-- The point of intersection, `Operations.cpp:1181-1182`. -/
def intersection (p q a b : Pt) : Pt :=
  ⟨p.x + Cross.ratioFirst p q a b * (q.x - p.x), p.y + Cross.ratioFirst p q a b * (q.y - p.y)⟩

/-- The loop `Mesh2D.cpp:918-933` over the sides from the current one on: the first that the segment from `g` to `c` crosses. -/
def pullBack (g c : Pt) : List (Pt × Pt) → Pt
  | [] => c
  | (a, b) :: l => if Cross.crossing g c a b then intersection g c a b else pullBack g c l

/-- `ComputeFaceCircumenter` for a triangle, `Mesh2D.cpp:830-936`.  The loop of lines 904-908 changes nothing, as `m_weightCircumCenter` is 1
(`Mesh2D.hpp:403`). -/
def triangleCentre (p q r : Pt) : Pt :=
  let c := circumcentre p q r
  if Polygons.inPolygonNodes [p, q, r, p] c then c
  else pullBack (mean p q r) c [(p, q), (q, r), (r, p)]

/-- The area and the centre of mass `FindFaces` stores, `Mesh2D.cpp:464, 483-484`. -/
def areaAndMass (nodes : List (Option Pt)) (ns : List Nat) : ℚ × Pt :=
  match Polygons.faceAreaIndexed (nodes.map (fun p => p.getD ⟨-999, -999⟩)) ns false with
  | .ok r => (r.1, r.2.1)
  | _ => (0, ⟨0, 0⟩)

/-- `m_facesCircumcenters[f]`, `Mesh2D.cpp:622-655`, for the face with nodes `ns` and edges `es`.  For faces that are no triangles the result of
`ComputeFaceCircumenter` is the parameter `other`. -/
def centre (other : List Pt → List Nat → Pt) (nodes : List (Option Pt)) (s : State) (ns es : List Nat) : Pt :=
  let counts := es.map (fun e => s.numFaces.getD e 0)
  if counts.all (· == 1) then (areaAndMass nodes ns).2
  else match ns.map (position nodes) with
    | [p, q, r] => triangleCentre p q r
    | l => other l counts

/-- What the functions of this file read. -/
structure Tables where
  nodes : List (Option Pt)
  edges : List Edge
  numFaces : List Nat
  edgesFaces : List (Nat × Nat)
  facesNodes : List (List Nat)
  centres : List Pt
  areas : List ℚ
  masses : List Pt

/-- The tables after the administration, `Mesh2D.cpp:153-168`. -/
def tables (other : List Pt → List Nat → Pt) (m : Mesh Pt) (s : State) : Tables where
  nodes := m.nodes
  edges := m.edges
  numFaces := s.numFaces
  edgesFaces := s.edgesFaces
  facesNodes := s.facesNodes
  centres := (s.facesNodes.zip s.facesEdges).map (fun f => centre other m.nodes s f.1 f.2)
  areas := s.facesNodes.map (fun ns => (areaAndMass m.nodes ns).1)
  masses := s.facesNodes.map (fun ns => (areaAndMass m.nodes ns).2)

/-! ## Values at the edges -/

/-- `NormalizedInnerProductTwoSegments`, `Operations.cpp:1078-1099`, Cartesian. -/
noncomputable def innerProduct (a b c d : Pt) : Option ℝ :=
  let dx1 := b.x - a.x
  let dx2 := d.x - c.x
  let dy1 := b.y - a.y
  let dy2 := d.y - c.y
  let r1 := dx1 * dx1 + dy1 * dy1
  let r2 := dx2 * dx2 + dy2 * dy2
  if r1 ≤ 0 ∨ r2 ≤ 0 then none
  else some (max (min (((dx1 * dx2 + dy1 * dy2 : ℚ) : ℝ) / √((r1 * r2 : ℚ) : ℝ)) 1) (-1))

/-- A coordinate pair as stored: a deleted node has the missing value. -/
def stored (p : Option Pt) : Pt := p.getD ⟨-999, -999⟩

/-- The edge has two nodes and two places for faces that are filled, `Mesh2D.cpp:1173-1176` and `1206-1209`. -/
def twoFaces (p : Edge) (f : Nat × Nat) : Bool := p.1 != missing && p.2 != missing && f.1 != missing && f.2 != missing

/-- One round of `GetOrthogonality`, `Mesh2D.cpp:1165-1190`. -/
noncomputable def edgeOrthogonality (t : Tables) (e : Nat) : Res (Option ℝ) := do
  let p ← vget t.edges e
  let f ← vget t.edgesFaces e
  if twoFaces p f then do
    let k ← vget t.numFaces e
    if k == 1 then .ok none
    else do
      let a ← vget t.nodes p.1
      let b ← vget t.nodes p.2
      let c ← vget t.centres f.1
      let d ← vget t.centres f.2
      .ok ((innerProduct (stored a) (stored b) c d).map (|·|))
  else .ok none

/-- `m_minimumCellArea`, `Mesh2D.hpp:402`. -/
def minimumCellArea : ℚ := 1 / 10 ^ 12

/-- The ratio of the areas, `Mesh2D.cpp:1214-1221`. -/
def ratio (l r : ℚ) : Option ℚ :=
  if l > minimumCellArea ∧ r > minimumCellArea then some (if r / l < 1 then 1 / (r / l) else r / l)
  else none

/-- One round of `GetSmoothness`, `Mesh2D.cpp:1198-1224`. -/
def edgeSmoothness (t : Tables) (e : Nat) : Res (Option ℚ) := do
  let p ← vget t.edges e
  let f ← vget t.edgesFaces e
  if twoFaces p f then do
    let k ← vget t.numFaces e
    if k == 1 then .ok none
    else do
      let l ← vget t.areas f.1
      let r ← vget t.areas f.2
      .ok (ratio l r)
  else .ok none

/-- A loop that fills a vector of `k` values, from place `i` on. -/
def fill {α : Type} (f : Nat → Res α) : Nat → Nat → Res (List α)
  | 0, _ => .ok []
  | k + 1, i => do
    let v ← f i
    let l ← fill f k (i + 1)
    .ok (v :: l)

/-- `GetOrthogonality`, `Mesh2D.cpp:1161-1192`. -/
noncomputable def orthogonality (t : Tables) : Res (List (Option ℝ)) := fill (edgeOrthogonality t) t.edges.length 0

/-- `GetSmoothness`, `Mesh2D.cpp:1194-1226`. -/
def smoothness (t : Tables) : Res (List (Option ℚ)) := fill (edgeSmoothness t) t.edges.length 0

/-- `ComputeDistance`, `Operations.cpp:913-921` with `879-908`, Cartesian.  A deleted node is at distance 0 from all points. -/
noncomputable def distance (p q : Option Pt) : ℝ :=
  match p, q with
  | some p, some q => √(((q.x - p.x) * (q.x - p.x) + (q.y - p.y) * (q.y - p.y) : ℚ) : ℝ)
  | _, _ => 0

/-- One round of `ComputeEdgesLengths`, `Mesh.cpp:558-567`; `old` is the value of before. -/
noncomputable def edgeLength (t : Tables) (old : List (Option ℝ)) (e : Nat) : Res (Option ℝ) := do
  let p ← vget t.edges e
  if p.1 != missing && p.2 != missing then do
    let a ← vget t.nodes p.1
    let b ← vget t.nodes p.2
    .ok (some (distance a b))
  else .ok (old[e]?.join)

/-- `ComputeEdgesLengths`, `Mesh.cpp:552-568`: the vector is resized, so entries that are not written stay. -/
noncomputable def edgeLengths (t : Tables) (old : List (Option ℝ)) : Res (List (Option ℝ)) := fill (edgeLength t old) t.edges.length 0

/-! ## The interface

`n` is `num_coordinates`; the result is what is written to the array of the caller. -/

/-- `mkernel_mesh2d_get_orthogonality`, `MeshKernel.cpp:1429-1461`. -/
noncomputable def apiOrthogonality (n : Nat) (t : Tables) : Res (List (Option ℝ)) :=
  if t.nodes.length = 0 then .ok []
  else do
    let r ← orthogonality t
    if n ≠ r.length then .throw
    else fill (vget r) n 0

/-- `mkernel_mesh2d_get_smoothness`, `MeshKernel.cpp:1555-1582`. -/
def apiSmoothness (n : Nat) (t : Tables) : Res (List (Option ℚ)) :=
  if t.nodes.length = 0 then .ok []
  else do
    let r ← smoothness t
    fill (vget r) n 0

/-- `mkernel_mesh2d_get_property`, `MeshKernel.cpp:1463-1513`. -/
noncomputable def apiProperty (property n : Nat) (t : Tables) (old : List (Option ℝ)) : Res (List (Option ℝ)) :=
  if t.nodes.length = 0 then .ok []
  else if property = 0 then do
    let r ← orthogonality t
    if n < r.length then .throw else .ok r
  else if property = 1 then do
    let r ← edgeLengths t old
    if n < r.length then .throw else .ok r
  else .throw

/-- `mkernel_mesh2d_get_property_dimension`, `MeshKernel.cpp:1515-1553`; `none`: the variable of the caller is not written. -/
noncomputable def apiPropertyDimension (property : Nat) (t : Tables) (old : List (Option ℝ)) : Res (Option Nat) :=
  if t.nodes.length = 0 then .ok none
  else if property = 0 then do
    let r ← orthogonality t
    .ok (some r.length)
  else if property = 1 then do
    let r ← edgeLengths t old
    .ok (some r.length)
  else .throw

/-! ## Obtuse triangles and short flow edges -/

/-- `ComputeSquaredDistance`, `Operations.cpp:879-908`, Cartesian. -/
def squared (p q : Option Pt) : ℚ :=
  match p, q with
  | some p, some q => (q.x - p.x) * (q.x - p.x) + (q.y - p.y) * (q.y - p.y)
  | _, _ => 0

/-- The test `Mesh2D.cpp:952-958`. -/
def isObtuse (a b c : Option Pt) : Bool :=
  let first := squared b a
  let second := squared c a
  let third := squared c b
  decide (first > second + third) || decide (second > first + third) || decide (third > second + first)

/-- One round of `GetObtuseTrianglesCenters`, `Mesh2D.cpp:943-963`. -/
def obtuseStep (t : Tables) (f : Nat) (r : List Pt) : Res (List Pt) := do
  let ns ← vget t.facesNodes f
  if ns.length == 3 then do
    let i ← vget ns 0
    let j ← vget ns 1
    let k ← vget ns 2
    let a ← vget t.nodes i
    let b ← vget t.nodes j
    let c ← vget t.nodes k
    if isObtuse a b c then do
      let p ← vget t.masses f
      .ok (r ++ [p])
    else .ok r
  else .ok r

/-- `GetObtuseTrianglesCenters`, `Mesh2D.cpp:938-965`, after the administration. -/
def obtuseTriangles (t : Tables) : Res (List Pt) := forRange 0 t.facesNodes.length (obtuseStep t) []

/-- The test `Mesh2D.cpp:979-982`. -/
noncomputable def isShort (threshold : ℚ) (c d : Pt) (a b : ℚ) : Bool :=
  open Classical in decide (distance (some c) (some d) < (threshold : ℝ) * (1 / 2) * (√(a : ℝ) + √(b : ℝ)))

/-- One round of `GetEdgesCrossingSmallFlowEdges`, `Mesh2D.cpp:972-987`. -/
noncomputable def flowStep (t : Tables) (threshold : ℚ) (e : Nat) (r : List Nat) : Res (List Nat) := do
  let f ← vget t.edgesFaces e
  if f.1 != missing && f.2 != missing then do
    let c ← vget t.centres f.1
    let d ← vget t.centres f.2
    let a ← vget t.areas f.1
    let b ← vget t.areas f.2
    .ok (if isShort threshold c d a b then r ++ [e] else r)
  else .ok r

/-- `GetEdgesCrossingSmallFlowEdges`, `Mesh2D.cpp:967-989`, after the administration. -/
noncomputable def smallFlowEdges (t : Tables) (threshold : ℚ) : Res (List Nat) := forRange 0 t.edges.length (flowStep t threshold) []

/-- `GetFlowEdgesCenters`, `Mesh2D.cpp:991-1003`. -/
def flowEdgesCenters (t : Tables) : List Nat → Res (List Pt)
  | [] => .ok []
  | e :: l => do
    let f ← vget t.edgesFaces e
    let c ← vget t.centres f.1
    let d ← vget t.centres f.2
    let r ← flowEdgesCenters t l
    .ok (⟨(c.x + d.x) * (1 / 2), (c.y + d.y) * (1 / 2)⟩ :: r)

end Verif.Quality
