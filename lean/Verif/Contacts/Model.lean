import Verif.Basic
import Mathlib.Algebra.Order.Field.Rat
/-!
# 1D-2D contacts

Models the five computations of `libs/MeshKernel/src/Contacts.cpp`.  The geometry (which points lie in
which faces and polygons, which segments cross, search results, distances) is a parameter; the
control flow, the vectors of indices and the marks are modelled.
-/
namespace Verif.Contacts

/-- What the computations see of the two meshes, after the administration of the 1D mesh. -/
structure Meshes where
  /-- Number of 1D nodes. -/
  numNodes1 : Nat
  /-- 1D edges; a deleted edge has the node number `missing`. -/
  edges1 : List (Nat × Nat)
  /-- Number of 2D nodes. -/
  numNodes2 : Nat
  /-- Number of 2D faces. -/
  numFaces : Nat

/-- The two vectors `m_mesh1dIndices` and `m_mesh2dIndices`. -/
structure Lists where
  mesh1 : List Nat
  mesh2 : List Nat
  deriving DecidableEq, Repr

/-- Two `emplace_back` calls. -/
def Lists.push (c : Lists) (node face : Nat) : Lists := ⟨c.mesh1 ++ [node], c.mesh2 ++ [face]⟩

/-- The checks at the start of each computation, for example `libs/MeshKernel/src/Contacts.cpp:28-38`,
with `Validate`, lines 500-512. -/
def checks (M : Meshes) (mask : List Bool) : Res Unit :=
  if mask.length ≠ M.numNodes1 then .throw
  else if M.numNodes1 = 0 then .throw
  else if M.numNodes2 = 0 then .throw
  else .ok ()

/-- `!oneDNodeMask.empty() && !oneDNodeMask[n]`. -/
def maskedOut (mask : List Bool) (n : Nat) : Res Bool :=
  if mask.isEmpty then .ok false
  else do
    let b ← vget mask n
    .ok (!b)

/-- `Mesh::Node` throws for an index that is too large,
`libs/MeshKernel/include/MeshKernel/Mesh.hpp:531-539`. -/
def nodeCheck (numNodes n : Nat) : Res Unit := if n ≥ numNodes then .throw else .ok ()

/-- Reading `m_facesCircumcenters[face]`. -/
def faceRead (M : Meshes) (face : Nat) : Res Unit := if face < M.numFaces then .ok () else .ub

/-! ## Single contacts -/

/-- Geometry of `ComputeSingleContacts`. -/
structure SingleGeo where
  /-- `PointFaceIndices` of the 1D nodes. -/
  faceOf : Nat → Nat
  /-- `PointsInPolygons` of the 1D nodes. -/
  inPolygon : Nat → Bool
  /-- The 1D node has no edges (`m_nodesNumEdges[node] <= 0`). -/
  isolated : Nat → Bool
  /-- Face and edge found by `IsSegmentCrossingABoundaryEdge`, to the right (`true`) or left. -/
  hit : Nat → Bool → Nat × Nat
  /-- The segment from the node to the face crosses the 1D edge with the given end nodes. -/
  crossesEdge : Nat → Nat → Nat → Nat → Bool
  /-- The segment from the node to the face crosses the segment of another contact. -/
  crossesContact : Nat → Nat → Nat → Nat → Bool

/-- `IsContactIntersectingMesh1d`, `libs/MeshKernel/src/Contacts.cpp:93-118`. -/
def intersectsMesh1 (M : Meshes) (G : SingleGeo) (node face : Nat) : List (Nat × Nat) → Res Bool
  | [] => .ok false
  | e :: es => do
    nodeCheck M.numNodes1 node
    faceRead M face
    nodeCheck M.numNodes1 e.1
    nodeCheck M.numNodes1 e.2
    if G.crossesEdge node face e.1 e.2 then .ok true else intersectsMesh1 M G node face es

/-- `IsContactIntersectingContact`, `libs/MeshKernel/src/Contacts.cpp:120-143`: the loop runs over the size of the
first vector, from position `i` with `fuel` rounds left. -/
def intersectsContact (M : Meshes) (G : SingleGeo) (node face : Nat) (c : Lists) : Nat → Nat → Res Bool
  | 0, _ => .ok false
  | fuel + 1, i => do
    nodeCheck M.numNodes1 node
    faceRead M face
    let n ← vget c.mesh1 i
    nodeCheck M.numNodes1 n
    let f ← vget c.mesh2 i
    faceRead M f
    if G.crossesContact node face n f then .ok true else intersectsContact M G node face c fuel (i + 1)

/-- `Connect1dNodesWithCrossingFaces`, `libs/MeshKernel/src/Contacts.cpp:77-91`; `ComputeProjectedNode` throws
for a node without edges, `libs/MeshKernel/src/Mesh1D.cpp:86-89`. -/
def connectCrossing (M : Meshes) (G : SingleGeo) (node : Nat) (right : Bool) (c : Lists) : Res Lists :=
  if G.isolated node then .throw
  else
    let h := G.hit node right
    if h.1 ≠ missing ∧ h.2 ≠ missing then do
      let b1 ← intersectsMesh1 M G node h.1 M.edges1
      if b1 then .ok c
      else do
        let b2 ← intersectsContact M G node h.1 c c.mesh1.length 0
        if b2 then .ok c else .ok (c.push node h.1)
    else .ok c

/-- Loop body of `ComputeSingleContacts`, `libs/MeshKernel/src/Contacts.cpp:48-71`. -/
def singleStep (M : Meshes) (G : SingleGeo) (mask : List Bool) (c : Lists) (n : Nat) : Res Lists :=
  if !G.inPolygon n then .ok c
  else do
    let out ← maskedOut mask n
    if out then .ok c
    else if G.faceOf n ≠ missing then .ok (c.push n (G.faceOf n))
    else do
      let c1 ← connectCrossing M G n true c
      connectCrossing M G n false c1

/-- A loop over a list of indices. -/
def loop (step : Lists → Nat → Res Lists) : List Nat → Lists → Res Lists
  | [], c => .ok c
  | n :: ns, c => do
    let c1 ← step c n
    loop step ns c1

/-- `ComputeSingleContacts`, `libs/MeshKernel/src/Contacts.cpp:23-75`, on a new object
(`libs/MeshKernelApi/src/MeshKernel.cpp:3547-3548`). -/
def single (M : Meshes) (G : SingleGeo) (mask : List Bool) : Res Lists := do
  checks M mask
  loop (singleStep M G mask) (List.range M.numNodes1) ⟨[], []⟩

/-! ## Multiple contacts -/

/-- Geometry of `ComputeMultipleContacts`. -/
structure MultiGeo where
  /-- `PointFaceIndices` of the 1D nodes. -/
  faceOf : Nat → Nat
  /-- Faces found near the first node of the 1D edge. -/
  near : Nat → List Nat
  /-- For each edge of the face: it crosses the 1D edge. -/
  crossing : Nat → Nat → List Bool
  /-- Distance of a 1D node to the centre of a face. -/
  dist : Nat → Nat → ℚ

/-- `nodeToConnect`, `libs/MeshKernel/src/Contacts.cpp:220-222`. -/
def MultiGeo.nearerEnd (G : MultiGeo) (edge : Nat × Nat) (face : Nat) : Nat :=
  if G.dist edge.1 face ≤ G.dist edge.2 face then edge.1 else edge.2

/-- State of the loops: the contacts and `isFaceAlreadyConnected`. -/
abbrev Marked := Lists × List Bool

/-- The loop over the edges of a face, `libs/MeshKernel/src/Contacts.cpp:194-240`: the list says for each edge of the face
whether it crosses the 1D edge. -/
def multiEdges (M : Meshes) (G : MultiGeo) (mask : List Bool) (edge : Nat × Nat) (node face : Nat) :
    List Bool → Marked → Res Marked
  | [], s => .ok s
  | b :: bs, s => do
    nodeCheck M.numNodes1 edge.1
    nodeCheck M.numNodes1 edge.2
    if !b then multiEdges M G mask edge node face bs s
    else do
      faceRead M face
      let out ← maskedOut mask node
      if out then multiEdges M G mask edge node face bs s
      else if G.faceOf node = missing then multiEdges M G mask edge node face bs s
      else do
        let marks ← vset s.2 face true
        .ok (s.1.push node face, marks)

/-- The loop over the faces near a 1D edge, `libs/MeshKernel/src/Contacts.cpp:184-241`; `nodeToConnect` of
line 222 depends on the edge and the face only. -/
def multiFaces (M : Meshes) (G : MultiGeo) (mask : List Bool) (i : Nat) (edge : Nat × Nat) :
    List Nat → Marked → Res Marked
  | [], s => .ok s
  | face :: fs, s => do
    let connected ← vget s.2 face
    if connected then multiFaces M G mask i edge fs s
    else do
      let s1 ← multiEdges M G mask edge (G.nearerEnd edge face) face (G.crossing i face) s
      multiFaces M G mask i edge fs s1

/-- The loop over the 1D edges, `libs/MeshKernel/src/Contacts.cpp:170-242`, from the edge `i` on.
`ComputeMaxLengthSurroundingEdges` reads `m_nodesNumEdges[node]` without a check,
`libs/MeshKernel/src/Mesh.cpp:885-901`. -/
def multiLoop (M : Meshes) (G : MultiGeo) (mask : List Bool) : List (Nat × Nat) → Nat → Marked → Res Marked
  | [], _, s => .ok s
  | edge :: es, i, s => do
    if edge.1 ≥ M.numNodes1 then .ub
    else do
      let s1 ← multiFaces M G mask i edge (G.near i) s
      multiLoop M G mask es (i + 1) s1

/-- `ComputeMultipleContacts`, `libs/MeshKernel/src/Contacts.cpp:145-245`. -/
def multiple (M : Meshes) (G : MultiGeo) (mask : List Bool) : Res Lists := do
  checks M mask
  let s ← multiLoop M G mask M.edges1 0 (⟨[], []⟩, List.replicate M.numFaces false)
  .ok s.1

/-! ## Contacts with polygons -/

/-- Geometry of `ComputeContactsWithPolygons`. -/
structure PolyGeo where
  /-- Number of polygons. -/
  numPolygons : Nat
  /-- `IsPointInPolygons` of the centre of the face. -/
  polygonOf : Nat → Bool × Nat
  /-- The 1D node nearest to the centre of the face. -/
  nearest : Nat → Nat
  /-- Squared distance of the centre of the face to that 1D node. -/
  dist : Nat → ℚ

/-- Per polygon: `closest1dNodeIndices`, `closest2dNodeIndices` and whether `minimalDistance` is set; its value is then
the distance of the stored face (a squared distance is never the sentinel -999). -/
structure Closest where
  node : Nat
  face : Nat
  found : Bool

/-- `FindLocationIndex` with a mask, `libs/MeshKernel/src/Mesh.cpp:673-710`: the query returns one node, the nearest;
it throws when that node is masked out. -/
def findMasked (mask : List Bool) (nearest : Nat) : Res Nat :=
  if mask.isEmpty then .ok nearest
  else do
    let b ← vget mask nearest
    if b then .ok nearest else .throw

/-- Loop body, `libs/MeshKernel/src/Contacts.cpp:284-306`. -/
def polyStep (M : Meshes) (G : PolyGeo) (mask : List Bool) (cs : List Closest) (face : Nat) : Res (List Closest) :=
  if !(G.polygonOf face).1 then .ok cs
  else do
    let n ← findMasked mask (G.nearest face)
    nodeCheck M.numNodes1 n
    let c ← vget cs (G.polygonOf face).2
    if c.found = false ∨ G.dist face < G.dist c.face then vset cs (G.polygonOf face).2 ⟨n, face, true⟩ else .ok cs

/-- The loop over the faces. -/
def polyLoop (M : Meshes) (G : PolyGeo) (mask : List Bool) : List Nat → List Closest → Res (List Closest)
  | [], cs => .ok cs
  | f :: fs, cs => do
    let cs1 ← polyStep M G mask cs f
    polyLoop M G mask fs cs1

/-- `ComputeContactsWithPolygons`, `libs/MeshKernel/src/Contacts.cpp:247-316`; without polygons it returns before
the other checks. -/
def withPolygons (M : Meshes) (G : PolyGeo) (mask : List Bool) : Res Lists :=
  if mask.length ≠ M.numNodes1 then .throw
  else if G.numPolygons = 0 then .ok ⟨[], []⟩
  else do
    checks M mask
    let cs ← polyLoop M G mask (List.range M.numFaces) (List.replicate G.numPolygons ⟨missing, missing, false⟩)
    .ok ⟨cs.map Closest.node, cs.map Closest.face⟩

/-! ## Contacts with points -/

/-- Loop of `ComputeContactsWithPoints`, `libs/MeshKernel/src/Contacts.cpp:341-361`: for each point its face
(`PointFaceIndices`) and the search result. -/
def pointLoop : List (Nat × Option Nat) → Lists → Lists
  | [], c => c
  | (face, found) :: ps, c =>
    if face = missing then pointLoop ps c
    else match found with
      | none => pointLoop ps c
      | some n => pointLoop ps (c.push n face)

/-- `ComputeContactsWithPoints`, `libs/MeshKernel/src/Contacts.cpp:318-364`. -/
def withPoints (M : Meshes) (points : List (Nat × Option Nat)) (mask : List Bool) : Res Lists := do
  checks M mask
  .ok (pointLoop points ⟨[], []⟩)

/-! ## Boundary contacts -/

/-- Geometry of `ComputeBoundaryContacts`. -/
structure BoundGeo where
  /-- Faces found near the 1D node. -/
  near : Nat → List Nat
  /-- `IsFaceOnBoundary`. -/
  onBoundary : Nat → Bool
  /-- `PointsInPolygons` of the circumcentres. -/
  inPolygon : Nat → Bool
  /-- Squared distance of a 1D node to the centre of a face. -/
  dist : Nat → Nat → ℚ

/-- `isValidFace` and `faceTo1DNode`. -/
structure Candidates where
  valid : List Bool
  node : List Nat

/-- The loop over the faces near a node, `libs/MeshKernel/src/Contacts.cpp:417-459`. -/
def boundFaces (M : Meshes) (G : BoundGeo) (n : Nat) : List Nat → Candidates → Res Candidates
  | [], s => .ok s
  | face :: fs, s => do
    let v ← vget s.valid face
    if !v then boundFaces M G n fs s
    else if !G.onBoundary face then do
      let v1 ← vset s.valid face false
      boundFaces M G n fs { s with valid := v1 }
    else if !G.inPolygon face then do
      let v1 ← vset s.valid face false
      boundFaces M G n fs { s with valid := v1 }
    else do
      let old ← vget s.node face
      if old = missing then do
        let n1 ← vset s.node face n
        boundFaces M G n fs { s with node := n1 }
      else do
        nodeCheck M.numNodes1 old
        if G.dist n face < G.dist old face then do
          let n1 ← vset s.node face n
          boundFaces M G n fs { s with node := n1 }
        else boundFaces M G n fs s

/-- The loop over the 1D nodes, `libs/MeshKernel/src/Contacts.cpp:401-460`. -/
def boundLoop (M : Meshes) (G : BoundGeo) (mask : List Bool) : List Nat → Candidates → Res Candidates
  | [], s => .ok s
  | n :: ns, s => do
    let out ← maskedOut mask n
    if out then boundLoop M G mask ns s
    else do
      let s1 ← boundFaces M G n (G.near n) s
      boundLoop M G mask ns s1

/-- The last loop, `libs/MeshKernel/src/Contacts.cpp:462-470`. -/
def collectStep (s : Candidates) (c : Lists) (f : Nat) : Res Lists := do
  let n ← vget s.node f
  let v ← vget s.valid f
  if n ≠ missing ∧ v = true then .ok (c.push n f) else .ok c

/-- `ComputeBoundaryContacts`, `libs/MeshKernel/src/Contacts.cpp:366-473`. -/
def boundary (M : Meshes) (G : BoundGeo) (mask : List Bool) : Res Lists := do
  checks M mask
  let s ← boundLoop M G mask (List.range M.numNodes1)
    ⟨List.replicate M.numFaces true, List.replicate M.numFaces missing⟩
  loop (collectStep s) (List.range M.numFaces) ⟨[], []⟩

end Verif.Contacts
