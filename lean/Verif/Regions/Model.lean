import Verif.Mesh.UndoModel
/-!
# Model: removing disconnected regions (`RemoveDisconnectedRegions.cpp`)

The faces of a mesh are given by the two tables `m_facesEdges` (the edges around each face) and
`m_edgesFaces` (the at most two faces of each edge); finding the faces is not modelled here.
`GetNumFaces` is the number of rows of `m_facesNodes` (`Mesh.hpp:153`), which has as many rows as
`m_facesEdges`.

A `while` loop is modelled by a recursion over a number of rounds that also returns what is left
to do: it describes the loop of the program when nothing is left, and that is proved for the
number of rounds used.
-/
namespace Verif.Regions
open Verif.Mesh
variable {P : Type}

/-- A mesh with its face tables `m_facesEdges` and `m_edgesFaces` (`Mesh.hpp`). -/
structure FaceMesh (P : Type) where
  mesh : Mesh P
  facesEdges : List (List Nat)
  edgesFaces : List (Nat × Nat)

/-- `GetNeighbour`, `RemoveDisconnectedRegions.cpp:7-25`. -/
def getNeighbour (edge : Nat × Nat) (element : Nat) : Nat :=
  if element = missing then missing
  else if edge.1 = element then edge.2
  else if edge.2 = element then edge.1
  else missing

/-- State of the flood fill: labels of the faces, number of faces labelled, queue. -/
structure Flood where
  label : List Nat
  count : Nat
  queue : List Nat
  deriving DecidableEq, Repr

/-- The test and the body `RemoveDisconnectedRegions.cpp:49-56` for one neighbour. -/
def visit (region neighbour : Nat) (s : Flood) : Res Flood :=
  if neighbour = missing then .ok s
  else do
    let old ← vget s.label neighbour
    if old = missing then do
      let l ← vset s.label neighbour region
      .ok ⟨l, s.count + 1, s.queue ++ [neighbour]⟩
    else .ok s

/-- The loop over the edges of a face, `RemoveDisconnectedRegions.cpp:45-57`. -/
def visitEdges (edgesFaces : List (Nat × Nat)) (region current : Nat) : List Nat → Flood → Res Flood
  | [], s => .ok s
  | e :: es, s => do
    let ef ← vget edgesFaces e
    let s1 ← visit region (getNeighbour ef current) s
    visitEdges edgesFaces region current es s1

/-- At most `rounds` rounds of the loop `RemoveDisconnectedRegions.cpp:38-58`. -/
def flood (facesEdges : List (List Nat)) (edgesFaces : List (Nat × Nat)) (region : Nat) :
    Nat → Flood → Res Flood
  | 0, s => .ok s
  | k + 1, s =>
    match s.queue with
    | [] => .ok s
    | current :: rest => do
      let es ← vget facesEdges current
      let s1 ← visitEdges edgesFaces region current es { s with queue := rest }
      flood facesEdges edgesFaces region k s1

/-- `LabelConnectedRegion`, `RemoveDisconnectedRegions.cpp:27-59`. -/
def labelConnectedRegion (facesEdges : List (List Nat)) (edgesFaces : List (Nat × Nat)) (region : Nat)
    (label : List Nat) (start : Nat) : Res Flood := do
  let l ← vset label start region
  flood facesEdges edgesFaces region facesEdges.length ⟨l, 1, [start]⟩

/-- The search `RemoveDisconnectedRegions.cpp:68-76`: the first face without a label. -/
def firstUnlabelled (label : List Nat) : Nat :=
  match label.findIdx? (fun l => l == missing) with
  | some i => i
  | none => missing

/-- `LabelSingleDomainRegion`, `RemoveDisconnectedRegions.cpp:61-84`: the flood fill, or no face
labelled and an empty queue. -/
def labelSingleDomainRegion (facesEdges : List (List Nat)) (edgesFaces : List (Nat × Nat)) (region : Nat)
    (label : List Nat) : Res Flood :=
  let start := firstUnlabelled label
  if start ≠ missing then labelConnectedRegion facesEdges edgesFaces region label start
  else .ok ⟨label, 0, []⟩

/-- What `LabelAllDomainRegions` produces: the labels, the list of regions with their number of
faces; `complete` tells that the loop has ended and every queue was emptied. -/
structure Labelling where
  label : List Nat
  regionCount : List (Nat × Nat)
  complete : Bool
  deriving DecidableEq, Repr

/-- At most `rounds` rounds of the loop `RemoveDisconnectedRegions.cpp:95-111`. -/
def labelLoop (facesEdges : List (List Nat)) (edgesFaces : List (Nat × Nat)) :
    Nat → Nat → List Nat → List (Nat × Nat) → Res Labelling
  | 0, _, label, counts => .ok ⟨label, counts, false⟩
  | k + 1, region, label, counts => do
    let f ← labelSingleDomainRegion facesEdges edgesFaces region label
    if !f.queue.isEmpty then .ok ⟨f.label, counts, false⟩
    else if f.count > 0 then
      labelLoop facesEdges edgesFaces k (region + 1) f.label (counts ++ [(region, f.count)])
    else .ok ⟨f.label, counts, true⟩

/-- `LabelAllDomainRegions`, `RemoveDisconnectedRegions.cpp:86-112`. -/
def labelAllDomainRegions (facesEdges : List (List Nat)) (edgesFaces : List (Nat × Nat)) : Res Labelling :=
  labelLoop facesEdges edgesFaces (facesEdges.length + 1) 1 (List.replicate facesEdges.length missing) []

/-- The search for the largest region, `RemoveDisconnectedRegions.cpp:160-170`: its identifier and
its number of faces. -/
def mainRegion : List (Nat × Nat) → Nat × Nat → Nat × Nat
  | [], best => best
  | (region, count) :: rest, best =>
    if count > best.2 then mainRegion rest (region, count) else mainRegion rest best

/-- The loop of `RemoveDetachedRegions`, `RemoveDisconnectedRegions.cpp:123-132`, over the faces
`is`.  The labels it resets are not read again. -/
def removeFaces (facesEdges : List (List Nat)) (label : List Nat) (region : Nat) :
    List Nat → Mesh P → Res (List (Act P) × Mesh P)
  | [], m => .ok ([], m)
  | i :: is, m => do
    let l ← vget label i
    if l ≠ region then do
      let es ← vget facesEdges i
      let r ← deleteEdgesU m es
      let rs ← removeFaces facesEdges label region is r.2
      .ok (r.1 ++ rs.1, rs.2)
    else removeFaces facesEdges label region is m

/-- Invalidate one node unless it is connected, `Mesh.cpp:171-181` with an undo action. -/
def invalidateNodeU (m : Mesh P) (isConnected : Bool) (n : Nat) : Res (List (Act P) × Mesh P) :=
  if isConnected then .ok ([], m) else resetNodeU m n none

/-- The loop of `InvalidateUnConnectedNodes`, `Mesh.cpp:168-187`, with an undo action. -/
def invalidateNodesU (isConnected : Nat → Bool) : List Nat → Mesh P → Res (List (Act P) × Mesh P)
  | [], m => .ok ([], m)
  | n :: ns, m => do
    let r ← invalidateNodeU m (isConnected n) n
    let rs ← invalidateNodesU isConnected ns r.2
    .ok (r.1 ++ rs.1, rs.2)

/-- The loop body `Mesh.cpp:277-291` with an undo action. -/
def invalidateEdgeU (m : Mesh P) (e : Nat) : Res (List (Act P) × Mesh P) := do
  let edge ← vget m.edges e
  if validEdge m.nodes edge then .ok ([], m) else resetEdgeU m e noEdge

/-- The loop `Mesh.cpp:275-292` with an undo action. -/
def invalidateEdgesU : List Nat → Mesh P → Res (List (Act P) × Mesh P)
  | [], m => .ok ([], m)
  | e :: es, m => do
    let r ← invalidateEdgeU m e
    let rs ← invalidateEdgesU es r.2
    .ok (r.1 ++ rs.1, rs.2)

/-- `SetUnConnectedNodesAndEdgesToInvalid`, `Mesh.cpp:249-293`, with an undo action. -/
def setUnconnectedInvalidU (m : Mesh P) : Res (List (Act P) × Mesh P) :=
  if !inBounds m then .ub
  else do
    let r ← invalidateNodesU (connected m) (List.range m.nodes.length) m
    if numInvalidEdges m = 0 ∧ r.2.nodes.countP (fun v => !v.isSome) = 0 then .ok r
    else do
      let rs ← invalidateEdgesU (List.range m.edges.length) r.2
      .ok (r.1 ++ rs.1, rs.2)

/-- `AdministrateNodesEdges`, `Mesh.cpp:864-883`, with an undo action; `order` as in
`Verif.Mesh.administrate`. -/
def administrateU (order : Nat → List Nat → List Nat) (m : Mesh P) : Res (List (Act P) × Mesh P) := do
  let r ← setUnconnectedInvalidU m
  if r.2.nodes.isEmpty || r.2.edges.isEmpty then .ok r
  else
    let adj := (nodeAdministration r.2.edges r.2.nodes.length).mapIdx
      (fun n l => if validNode r.2.nodes n then order n l else l)
    .ok (r.1, { r.2 with nodesEdges := adj, numEdges := adj.map List.length })

/-- `Compute`, `RemoveDisconnectedRegions.cpp:137-179`: the undo actions and the mesh afterwards.
The faces found by the final `Administrate` are not modelled. -/
def compute (order : Nat → List Nat → List Nat) (fm : FaceMesh P) : Res (List (Act P) × Mesh P) := do
  let l ← labelAllDomainRegions fm.facesEdges fm.edgesFaces
  if l.regionCount.length > 1 then do
    let main := (mainRegion l.regionCount (0, 0)).1
    let r ← removeFaces fm.facesEdges l.label main (List.range l.label.length) fm.mesh
    let rs ← administrateU order r.2
    .ok (r.1 ++ rs.1, rs.2)
  else .ok ([], fm.mesh)

end Verif.Regions
