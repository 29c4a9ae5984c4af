import Verif.Quality.Model
import Verif.Polygons.ContainsModel
/-!
# Model: listing faces as polygons and nodes in polygons

Models `FillFacePolygons`, `libs/MeshKernelApi/include/MeshKernelApi/Utils.hpp:586-618`, `FilterBasedOnMetric`,
`libs/MeshKernel/src/Mesh2D.cpp:1637-1683`, `NodeMaskFromPolygon`, `Mesh2D.cpp:2073-2092`, and the calls of
`libs/MeshKernelApi/src/MeshKernel.cpp:2103-2173, 2411-2548`.

Both coordinates of a place are written together, so a list of places stands for the two arrays; `none` is the pair of missing values, also
the coordinates of a deleted node.
-/
namespace Verif.Listing
open Verif.Mesh Verif.Faces Verif.Polygons
variable {P : Type}

/-! ## Faces -/

/-- The arrays and `count`. -/
abbrev Out (P : Type) := List (Option P) × Nat

/-- One assignment to both arrays and `count++`. -/
def put (v : Option P) (o : Out P) : Res (Out P) := do
  let b ← vset o.1 o.2 v
  .ok (b, o.2 + 1)

/-- `Mesh::Node`, `Mesh.hpp:531-539`: throws if there is no such node. -/
def nodeAt (nodes : List (Option P)) (n : Nat) : Res (Option P) := if n < nodes.length then vget nodes n else .throw

/-- The loop over the corners, `Utils.hpp:606-612`. -/
def putNodes (nodes : List (Option P)) : List Nat → Out P → Res (Out P)
  | [], o => .ok o
  | n :: ns, o => do
    let p ← nodeAt nodes n
    let o' ← put p o
    putNodes nodes ns o'

/-- The separator, `Utils.hpp:599-604`. -/
def separate (o : Out P) : Res (Out P) := if o.2 ≠ 0 then put none o else .ok o

/-- One face, `Utils.hpp:598-616`. -/
def fillFace (nodes : List (Option P)) (ns : List Nat) (o : Out P) : Res (Out P) := do
  let o1 ← separate o
  let o2 ← putNodes nodes ns o1
  let n0 ← vget ns 0
  let p ← nodeAt nodes n0
  put p o2

/-- One round of the loop, `Utils.hpp:591-617`. -/
def fillStep (nodes : List (Option P)) (faces : List (List Nat)) (mask : List Bool) (f : Nat) (o : Out P) : Res (Out P) := do
  let b ← vget mask f
  if b then do
    let ns ← vget faces f
    fillFace nodes ns o
  else .ok o

/-- `FillFacePolygons`, `Utils.hpp:586-618`. -/
def fillFacePolygons (nodes : List (Option P)) (faces : List (List Nat)) (mask : List Bool) (buf : List (Option P)) : Res (List (Option P)) := do
  let o ← forRange 0 faces.length (fillStep nodes faces mask) (buf, 0)
  .ok o.1

/-- `Administrate`, `Mesh2D.cpp:188-191` and `153-168`; `order` sorts the edges of a node by their angles, given nodes and edges. -/
def administer (order : List (Option P) → List Edge → Nat → List Nat → List Nat) (clockwise : List (Option P) → List Nat → Bool) (m : Mesh P) :
    Res (Mesh P × State) := do
  let m1 ← setUnconnectedInvalid m
  doAdministration (order m1.nodes m1.edges) clockwise m

section
variable (order : List (Option P) → List Edge → Nat → List Nat → List Nat) (clockwise : List (Option P) → List Nat → Bool)

/-- `validFace`, `MeshKernel.cpp:2422-2431`. -/
def validFace (faces : List (List Nat)) (numEdges : Int) : List Bool := faces.map fun ns => decide ((ns.length : Int) = numEdges)

/-- `mkernel_mesh2d_get_face_polygons`, `MeshKernel.cpp:2411-2439`; the mesh afterwards and the arrays. -/
def getFacePolygons (m : Mesh P) (numEdges : Int) (buf : List (Option P)) : Res (Mesh P × List (Option P)) := do
  let r ← administer order clockwise m
  let b ← fillFacePolygons r.1.nodes r.2.facesNodes (validFace r.2.facesNodes numEdges) buf
  .ok (r.1, b)

/-- `numMatchingFaces`, `MeshKernel.cpp:2452-2461`. -/
def numMatching (faces : List (List Nat)) (numEdges : Int) : Nat := faces.countP fun ns => decide ((ns.length : Int) = numEdges)

/-- `MeshKernel.cpp:2462-2465`; `d` is the value the variable had before. -/
def dimensionOf (faces : List (List Nat)) (numEdges d : Int) : Int :=
  if numMatching faces numEdges > 0 then (numEdges + 2) * ((numMatching faces numEdges : Int) - 1) + numEdges + 1 else d

/-- `mkernel_mesh2d_get_face_polygons_dimension`, `MeshKernel.cpp:2441-2472`. -/
def getFacePolygonsDimension (m : Mesh P) (numEdges d : Int) : Res (Mesh P × Int) := do
  let r ← administer order clockwise m
  .ok (r.1, dimensionOf r.2.facesNodes numEdges d)

end

section
variable {K : Type} [LinearOrder K]

/-- The inner loop of `FilterBasedOnMetric`, `Mesh2D.cpp:1664-1673`, and the test of line 1676: no edge is out of range. -/
def allInRange (values : List K) (lo hi : K) : List Nat → Res Bool
  | [] => .ok true
  | e :: es => do
    let v ← vget values e
    if v < lo ∨ v > hi then .ok false else allInRange values lo hi es

/-- The outer loop of `FilterBasedOnMetric`, `Mesh2D.cpp:1660-1680`. -/
def filterFaces (values : List K) (lo hi : K) : List (List Nat) → Res (List Bool)
  | [] => .ok []
  | es :: fs => do
    let b ← allInRange values lo hi es
    let bs ← filterFaces values lo hi fs
    .ok (b :: bs)

/-- `FilterBasedOnMetric`, `Mesh2D.cpp:1637-1683`, for the faces; `values` is the outcome of line 1657.  Property 0 is the orthogonality
(`Mesh2D.hpp:80-84`). -/
def filterBasedOnMetric (property : Nat) (values : Res (List K)) (facesEdges : List (List Nat)) (lo hi : K) : Res (List Bool) :=
  if property ≠ 0 then .throw
  else do
    let vs ← values
    filterFaces vs lo hi facesEdges

/-- The sum of `MeshKernel.cpp:2496-2509`. -/
def filteredDimension (faces : List (List Nat)) (mask : List Bool) : Int :=
  let d : Int := ((faces.zip mask).map fun p => if p.2 then (p.1.length : Int) + 2 else 0).sum
  if d > 0 then d - 1 else d

/-- `mkernel_mesh2d_get_filtered_face_polygons_dimension`, `MeshKernel.cpp:2474-2516`. -/
def getFilteredDimension (nodes : List (Option P)) (s : State) (values : Res (List K)) (property : Nat) (lo hi : K) : Res Int :=
  if nodes.length ≤ 0 then .throw
  else do
    let mask ← filterBasedOnMetric property values s.facesEdges lo hi
    .ok (filteredDimension s.facesNodes mask)

/-- `mkernel_mesh2d_get_filtered_face_polygons`, `MeshKernel.cpp:2518-2548`. -/
def getFiltered (nodes : List (Option P)) (s : State) (values : Res (List K)) (property : Nat) (lo hi : K) (buf : List (Option P)) :
    Res (List (Option P)) :=
  if nodes.length ≤ 0 then .throw
  else do
    let mask ← filterBasedOnMetric property values s.facesEdges lo hi
    fillFacePolygons nodes s.facesNodes mask buf

end

/-- `GetOrthogonality` as numbers, with the missing value -999, `Mesh2D.cpp:1161-1192`. -/
noncomputable def orthogonalityValues (t : Quality.Tables) : Res (List ℝ) := do
  let l ← Quality.orthogonality t
  .ok (l.map fun v => v.getD (-999))

/-! ## Nodes -/

/-- `NodeMaskFromPolygon`, `Mesh2D.cpp:2073-2092`; a deleted node is at (-999, -999). -/
def nodeMaskFromPolygon (test : List Pt → Pt → Bool) (es : List Enclosure) (nodes : List (Option Pt)) (inside : Bool) : List Nat :=
  (pointsInPolygons test es (nodes.map Quality.stored)).map fun b => if (if inside then b else !b) then 1 else 0

/-- One round of the loop, `MeshKernel.cpp:2124-2131`. -/
def selectStep (mask : List Nat) (i : Nat) (o : List Int × Nat) : Res (List Int × Nat) := do
  let k ← vget mask i
  if k > 0 then do
    let b ← vset o.1 o.2 (i : Int)
    .ok (b, o.2 + 1)
  else .ok o

/-- `mkernel_mesh2d_get_nodes_in_polygons`, `MeshKernel.cpp:2103-2138`. -/
def getNodesInPolygons (test : List Pt → Pt → Bool) (es : List Enclosure) (nodes : List (Option Pt)) (inside : Int) (buf : List Int) :
    Res (List Int) := do
  let o ← forRange 0 nodes.length (selectStep (nodeMaskFromPolygon test es nodes (decide (inside = 1)))) (buf, 0)
  .ok o.1

/-- One round of the loop, `MeshKernel.cpp:2160-2166`. -/
def countStep (mask : List Nat) (i : Nat) (c : Nat) : Res Nat := do
  let k ← vget mask i
  .ok (if k > 0 then c + 1 else c)

/-- `mkernel_mesh2d_count_nodes_in_polygons`, `MeshKernel.cpp:2140-2173`. -/
def countNodesInPolygons (test : List Pt → Pt → Bool) (es : List Enclosure) (nodes : List (Option Pt)) (inside : Int) : Res Nat :=
  forRange 0 nodes.length (countStep (nodeMaskFromPolygon test es nodes (decide (inside = 1)))) 0

end Verif.Listing
