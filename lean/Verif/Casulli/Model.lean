import Verif.Regions.Model
import Verif.Faces.Model
import Verif.Loop
/-!
# Model: Casulli refinement of a mesh

Models `libs/MeshKernel/src/CasulliRefinement.cpp` and the functions of `Mesh2D.cpp` it calls.  `P` is the type of coordinates, `mid` the point
halfway between two others, `centres` the list `m_facesCircumcenters`, `types` the list `m_nodesTypes`, and `sel` tells which nodes
`Polygons::IsPointInPolygons` takes to be inside the polygon (all of them for an empty polygon).
-/
namespace Verif.Casulli
open Verif.Mesh Verif.Faces
variable {P : Type}

/-- `NodeMask`, `CasulliRefinement.hpp:58-66`. -/
inductive Mask where
  | newAssigned
  | newGeneral
  | unassigned
  | registered
  | boundary
  | corner
deriving DecidableEq, Repr

/-- The order of the values, `CasulliRefinement.hpp:58-66`. -/
def Mask.rank : Mask → Nat
  | .newAssigned => 0
  | .newGeneral => 1
  | .unassigned => 2
  | .registered => 3
  | .boundary => 4
  | .corner => 5

/-- What the refinement reads of the mesh and does not change: the tables of the faces, the types of the nodes and the centres of the faces. -/
structure Tables (P : Type) where
  faces : State
  types : List Int
  centres : List P

/-- `Mesh::GetEdge`, `Mesh.hpp:549-557`. -/
def getEdge (m : Mesh P) (e : Nat) : Res Edge :=
  match m.edges[e]? with
  | some p => .ok p
  | none => .throw

/-- `Mesh::Node`, `Mesh.hpp:531-539`. -/
def getNode (m : Mesh P) (n : Nat) : Res (Option P) :=
  match m.nodes[n]? with
  | some p => .ok p
  | none => .throw

/-! ## The mask of the nodes -/

/-- One end of a boundary edge, `CasulliRefinement.cpp:69-72, 74-77`. -/
def markBoundary (n : Nat) (mask : List Mask) : Res (List Mask) := do
  let a ← vget mask n
  if a ≠ .unassigned then vset mask n .boundary else .ok mask

/-- One round of the loop `CasulliRefinement.cpp:61-79`. -/
def boundaryEdge (m : Mesh P) (s : State) (e : Nat) (mask : List Mask) : Res (List Mask) := do
  let p ← getEdge m e
  let c ← vget s.numFaces e
  if c = 1 then do
    let mask1 ← markBoundary p.1 mask
    markBoundary p.2 mask1
  else .ok mask

/-- The loop `CasulliRefinement.cpp:104-108`, `r` rounds before the last place. -/
def otherSide (m : Mesh P) (n e1 : Nat) (es : List Nat) : Nat → Nat → Res Nat
  | 0, k => do
    let e ← vget es k
    let _ ← getEdge m e
    .ok e
  | r + 1, k => do
    let e ← vget es k
    let p ← getEdge m e
    if (p.1 ≠ n ∧ p.2 ≠ n) ∨ e = e1 then otherSide m n e1 es r (k + 1) else .ok e

/-- The loop `CasulliRefinement.cpp:87-118` over the edges of node `n`. -/
def cornerAt (m : Mesh P) (s : State) (n : Nat) : List Nat → List Mask → Res (List Mask)
  | [], mask => .ok mask
  | e1 :: l, mask => do
    let c ← vget s.numFaces e1
    if c ≠ 1 then cornerAt m s n l mask
    else do
      let fs ← vget s.edgesFaces e1
      let ns ← vget s.facesNodes fs.1
      let es ← vget s.facesEdges fs.1
      let e2 ← otherSide m n e1 es (ns.length - 1) 0
      let c2 ← vget s.numFaces e2
      let a ← vget mask n
      if c2 = 1 ∧ a.rank > Mask.unassigned.rank then vset mask n .corner else cornerAt m s n l mask

/-- One round of the loop `CasulliRefinement.cpp:84-119`. -/
def cornerNode (m : Mesh P) (s : State) (n : Nat) (mask : List Mask) : Res (List Mask) := do
  let l ← listedEdges m n
  cornerAt m s n l mask

/-- One round of the loop `CasulliRefinement.cpp:122-128`. -/
def cornerType (types : List Int) (n : Nat) (mask : List Mask) : Res (List Mask) := do
  let a ← vget mask n
  if a ≠ .unassigned then do
    let t ← vget types n
    if t = 3 then vset mask n .corner else .ok mask
  else .ok mask

/-- `m_edgesFaces[edge][max(min(m_edgesNumFaces[edge], 2), 1) - 1]`, `Mesh2D.cpp:2357-2358`. -/
def lastFace (c : Nat) (fs : Nat × Nat) : Nat := if c ≥ 2 then fs.2 else fs.1

/-- `Mesh2D.cpp:2360-2375`: the face the two edges share, other than the previous one. -/
def nextFace (last : Nat) (c1 c2 : Nat) (f1 f2 : Nat × Nat) : Nat :=
  if f1.1 ≠ last ∧ (f1.1 = f2.1 ∨ f1.1 = lastFace c2 f2) then f1.1
  else if lastFace c1 f1 ≠ last ∧ (lastFace c1 f1 = f2.1 ∨ lastFace c1 f1 = lastFace c2 f2) then lastFace c1 f1
  else missing

/-- `Mesh2D.cpp:2378-2385`: the second edge of a corner. -/
def cornerFace (deg j : Nat) (t : Int) (shared : List Nat) (f : Nat) : Nat :=
  if deg = 2 ∧ j = 1 ∧ t = 3 ∧ shared.head? = some f then missing else f

/-- One round of the loop `Mesh2D.cpp:2340-2387` in `FindFacesConnectedToNode`; the state is `newFaceIndex` and `sharedFaces`. -/
def sharedFace (s : State) (l : List Nat) (t : Int) (j : Nat) (st : Nat × List Nat) : Res (Nat × List Nat) := do
  let e1 ← vget l j
  let e2 ← vget l (if j + 1 ≥ l.length then 0 else j + 1)
  let c1 ← vget s.numFaces e1
  let c2 ← vget s.numFaces e2
  if c1 = 0 ∨ c2 = 0 then .ok st
  else do
    let f1 ← vget s.edgesFaces e1
    let f2 ← vget s.edgesFaces e2
    let f := cornerFace l.length j t st.2 (nextFace st.1 c1 c2 f1 f2)
    .ok (f, st.2 ++ [f])

/-- `FindFacesConnectedToNode`, `Mesh2D.cpp:2335-2388`.  The type of the node is read for nodes with two edges only; here it is always read. -/
def facesConnected (s : State) (types : List Int) (n : Nat) (l : List Nat) : Res (List Nat) := do
  let t ← vget types n
  let r ← forRange 0 l.length (sharedFace s l t) (missing, [])
  .ok r.2

/-- The value of the mask after `CasulliRefinement.cpp:165-178`, for a node with `deg` edges and `count` faces. -/
def faceMask (deg count : Nat) (a : Mask) : Mask :=
  let a1 := if count = 0 then Mask.unassigned else a
  let a2 := if count < deg - 1 ∧ a1 = .boundary then Mask.corner else a1
  if count > maxEdgesPerNode ∧ a2 = .registered then .corner else a2

/-- One round of the loop `CasulliRefinement.cpp:138-179`.  The nodes that `FindPatchIds` (`224-254`) collects are not used and left out. -/
def faceNode (m : Mesh P) (s : State) (types : List Int) (n : Nat) (mask : List Mask) : Res (List Mask) := do
  let a ← vget mask n
  if a = .unassigned then .ok mask
  else do
    let l ← listedEdges m n
    if l.length > 1 then do
      let fs ← facesConnected s types n l
      vset mask n (faceMask l.length (fs.countP (· ≠ missing)) a)
    else vset mask n .unassigned

/-- `InitialiseNodeMask`, `CasulliRefinement.cpp:182-204`. -/
def initialMask (m : Mesh P) (t : Tables P) (sel : Nat → Bool) : Res (List Mask) := do
  let n := m.nodes.length
  let mask := (List.range n).map (fun i => if sel i then Mask.registered else .unassigned) ++ List.replicate (9 * n) .unassigned
  let mask1 ← forRange 0 m.edges.length (boundaryEdge m t.faces) mask
  let mask2 ← forRange 0 n (cornerNode m t.faces) mask1
  let mask3 ← forRange 0 n (cornerType t.types) mask2
  forRange 0 n (faceNode m t.faces t.types) mask3

/-! ## New nodes -/

/-- The mesh while it is refined, with the actions so far, the mask of the nodes and the table `newNodes`. -/
structure Run (P : Type) where
  acts : List (Act P)
  mesh : Mesh P
  mask : List Mask
  table : List (List Nat)

/-- `FindCommonFace`, `Mesh2D.cpp:2524-2538`. -/
def commonFace (l1 l2 : List Nat) : Nat :=
  match l1.find? (fun f => l2.contains f) with
  | some f => f
  | none => missing

/-- The faces of an edge as `Mesh2D.cpp:2526-2535` reads them.  An edge has at most two faces. -/
def facesOf (s : State) (e : Nat) : Res (List Nat) := do
  let c ← vget s.numFaces e
  let fs ← vget s.edgesFaces e
  .ok ([fs.1, fs.2].take c)

/-- The loop `Mesh2D.cpp:2490-2502`: `edgeIndex` and `nextEdgeIndex`. -/
def findSides (m : Mesh P) (e last : Nat) : List Nat → Nat → Nat × Nat → Res (Nat × Nat)
  | [], _, r => .ok r
  | e' :: es, i, r => do
    let p ← vget m.edges e'
    if e' = e then findSides m e last es (i + 1) (i, r.2)
    else if p.1 = last ∨ p.2 = last then findSides m e last es (i + 1) (r.1, i)
    else findSides m e last es (i + 1) r

/-- `Mesh2D.cpp:2504-2521`, for a face of `k` nodes. -/
def leftOrRight (k : Nat) (r : Nat × Nat) : Nat :=
  if r.1 = missing ∨ r.2 = missing then missing
  else if r.2 = r.1 + 1 ∨ r.2 + k = r.1 + 1 then 0
  else if r.1 = r.2 + 1 ∨ r.1 + k = r.2 + 1 then 1
  else missing

/-- `IsLeftOrRight`, `Mesh2D.cpp:2484-2522`. -/
def isLeftOrRight (m : Mesh P) (s : State) (f e : Nat) : Res Nat := do
  let p ← vget m.edges e
  let es ← vget s.facesEdges f
  let ns ← vget s.facesNodes f
  let r ← findSides m e p.2 es 0 (missing, missing)
  .ok (leftOrRight ns.length r)

/-- `IsStartOrEnd`, `Mesh2D.cpp:2468-2482`. -/
def isStartOrEnd (m : Mesh P) (e n : Nat) : Res Nat := do
  let p ← vget m.edges e
  .ok (if p.1 = n then 0 else if p.2 = n then 1 else missing)

/-- `1 - lr` in 32 bits, `CasulliRefinement.cpp:739-744`. -/
def oneMinus (lr : Nat) : Nat := (1 + 2 ^ 32 - lr) % 2 ^ 32

/-- `se + 2 * (1 - lr)` in 32 bits, `CasulliRefinement.cpp:743-744`. -/
def place (se lr : Nat) : Nat := (se + 2 * oneMinus lr) % 2 ^ 32

/-- `newNodes[edge][place]` -/
def slot (table : List (List Nat)) (e k : Nat) : Res Nat := do
  let row ← vget table e
  vget row k

/-- `CasulliRefinement.cpp:746-749, 751-754`. -/
def fill (e k new : Nat) (table : List (List Nat)) : Res (List (List Nat)) := do
  let row ← vget table e
  let old ← vget row k
  if old = missing then vset table e (row.set k new) else .ok table

/-- `StoreNewNode`, `CasulliRefinement.cpp:700-755`; it is called with two edges that are not missing. -/
def storeNewNode (m : Mesh P) (s : State) (n e1 e2 new : Nat) (table : List (List Nat)) : Res (List (List Nat)) := do
  let l1 ← facesOf s e1
  let l2 ← facesOf s e2
  let f := commonFace l1 l2
  if f = missing then .throw
  else do
    let lr1 ← isLeftOrRight m s f e1
    let lr2 ← isLeftOrRight m s f e2
    let se1 ← isStartOrEnd m e1 n
    let se2 ← isStartOrEnd m e2 n
    let table1 ← fill e1 (place se1 (if e1 = e2 then oneMinus lr1 else lr1)) new table
    fill e2 (place se2 (if e1 = e2 then oneMinus lr2 else lr2)) new table1

/-- The edges of a face with end `n`, `CasulliRefinement.cpp:586-602`; the loop stops at the second one. -/
def edgesAt (m : Mesh P) (n : Nat) : List Nat → Res (List Nat)
  | [] => .ok []
  | e :: es => do
    let p ← getEdge m e
    let r ← edgesAt m n es
    .ok (if p.1 = n ∨ p.2 = n then e :: r else r)

/-- Halfway between two points, `CasulliRefinement.cpp:612, 653, 657, 672`.  Points of faces and of edges with a face are never invalid; what the code
makes of an invalid one is left out. -/
def halfway (mid : P → P → P) (a b : Option P) : Option P :=
  match a, b with
  | some x, some y => some (mid x y)
  | _, _ => none

/-- Insert a node and set its mask, `CasulliRefinement.cpp:614-617, 659-661, 674-676`. -/
def addNode (v : Option P) (k : Mask) (r : Run P) : Res (Run P) := do
  let q ← insertNodeU r.mesh v
  let mask ← vset r.mask r.mesh.nodes.length k
  .ok ⟨r.acts ++ q.1, q.2, mask, r.table⟩

/-- `CasulliRefinement.cpp:610-622, 655-666, 670-681`: a new node if the mask tells so, otherwise the node itself.  Also its number. -/
def newNode (v : Option P) (k : Mask) (new : Bool) (n : Nat) (r : Run P) : Res (Nat × Run P) :=
  if new then do
    let r1 ← addNode v k r
    .ok (r.mesh.nodes.length, r1)
  else .ok (n, r)

/-- Write the number of a node in the table, `CasulliRefinement.cpp:624, 668, 683`. -/
def store (s : State) (n e1 e2 new : Nat) (r : Run P) : Res (Run P) := do
  let table ← storeNewNode r.mesh s n e1 e2 new r.table
  .ok { r with table := table }

/-- One round of the loop `CasulliRefinement.cpp:577-625`: corner `n` of a face with edges `es` and centre `c`. -/
def faceCorner (mid : P → P → P) (s : State) (c : P) (es : List Nat) (n : Nat) (r : Run P) : Res (Run P) := do
  let at_n ← edgesAt r.mesh n es
  match at_n with
  | e1 :: e2 :: _ => do
    let a ← vget r.mask n
    let p ← getNode r.mesh n
    let q ← newNode (halfway mid (some c) p) .newAssigned (a.rank > Mask.unassigned.rank) n r
    store s n e1 e2 q.1 q.2
  | _ => .ok r

/-- The loop `CasulliRefinement.cpp:577-625`. -/
def faceCorners (mid : P → P → P) (s : State) (c : P) (es : List Nat) : List Nat → Run P → Res (Run P)
  | [], r => .ok r
  | n :: ns, r => do
    let r1 ← faceCorner mid s c es n r
    faceCorners mid s c es ns r1

/-- One round of the loop `CasulliRefinement.cpp:573-626`. -/
def newFaceNodes (mid : P → P → P) (t : Tables P) (f : Nat) (r : Run P) : Res (Run P) := do
  let c ← vget t.centres f
  let ns ← vget t.faces.facesNodes f
  let es ← vget t.faces.facesEdges f
  faceCorners mid t.faces c es ns r

/-- `CasulliRefinement.cpp:655-668, 670-683`: end `n` of boundary edge `e` with centre `c`. -/
def edgeEnd (mid : P → P → P) (s : State) (e : Nat) (c : Option P) (n : Nat) (r : Run P) : Res (Run P) := do
  let a ← vget r.mask n
  let p ← getNode r.mesh n
  let q ← newNode (halfway mid c p) .newGeneral (a ≠ .unassigned) n r
  store s n e e q.1 q.2

/-- One round of the loop `CasulliRefinement.cpp:635-684`. -/
def newEdgeNodes (mid : P → P → P) (s : State) (e : Nat) (r : Run P) : Res (Run P) := do
  let c ← vget s.numFaces e
  if c ≠ 1 then .ok r
  else do
    let p ← getEdge r.mesh e
    if p.1 = missing ∧ p.2 = missing then .ok r
    else do
      let a ← getNode r.mesh p.1
      let b ← getNode r.mesh p.2
      let r1 ← edgeEnd mid s e (halfway mid a b) p.1 r
      edgeEnd mid s e (halfway mid a b) p.2 r1

/-- `ComputeNewNodes`, `CasulliRefinement.cpp:689-698`. -/
def computeNewNodes (mid : P → P → P) (t : Tables P) (r : Run P) : Res (Run P) := do
  let r1 ← forRange 0 t.faces.facesNodes.length (newFaceNodes mid t) r
  forRange 0 r.mesh.edges.length (newEdgeNodes mid t.faces) r1

/-! ## New edges -/

/-- `mesh.ConnectNodes` with its action. -/
def connect (a b : Nat) (r : Run P) : Res (Run P) := do
  let q ← connectNodesU r.mesh a b
  .ok { r with acts := r.acts ++ q.1, mesh := q.2 }

/-- `CasulliRefinement.cpp:269-273, 275-279, 282-286, 288-292`. -/
def connectNew (a b : Nat) (r : Run P) : Res (Run P) :=
  if a ≠ missing ∧ b ≠ missing ∧ a ≠ b then connect a b r else .ok r

/-- One round of the loop `CasulliRefinement.cpp:261-293`. -/
def connectEdge (e : Nat) (r : Run P) : Res (Run P) := do
  let n1 ← slot r.table e 0
  let n2 ← slot r.table e 1
  let n3 ← slot r.table e 2
  let n4 ← slot r.table e 3
  let r1 ← connectNew n1 n2 r
  let r2 ← connectNew n3 n4 r1
  let r3 ← connectNew n1 n3 r2
  connectNew n2 n4 r3

/-- One round of the loop `CasulliRefinement.cpp:310-325`: `oldIndex[j]` and `newIndex[j]`. -/
def faceIndex (m : Mesh P) (table : List (List Nat)) (es : List Nat) (j : Nat) : Res (Nat × Nat) := do
  let e ← vget es j
  let e' ← vget es ((j + 3) % 4)
  let p ← getEdge m e
  let p' ← getEdge m e'
  if p.1 ≠ p'.1 ∧ p.1 ≠ p'.2 then do
    let n ← slot table e 1
    .ok (p.2, n)
  else do
    let n ← slot table e 2
    .ok (p.1, n)

/-- The masks of four nodes, `CasulliRefinement.cpp:352, 360, 368`.  The code reads the later ones only if needed. -/
def fourMasks (mask : List Mask) (a b c d : Nat) : Res (Mask × Mask × Mask × Mask) := do
  let x ← vget mask a
  let y ← vget mask b
  let z ← vget mask c
  let w ← vget mask d
  .ok (x, y, z, w)

/-- The loop `CasulliRefinement.cpp:327-374`, from corner `j` on; `idx` are the pairs of old and new numbers. -/
def faceDiagonal (idx : List (Nat × Nat)) : List Nat → Run P → Res (Run P)
  | [], r => .ok r
  | j :: js, r => do
    let here ← vget idx j
    let prev ← vget idx ((j + 3) % 4)
    let next ← vget idx ((j + 1) % 4)
    let opp ← vget idx ((j + 2) % 4)
    let k ← fourMasks r.mask here.2 prev.1 next.1 opp.1
    if k.1.rank < Mask.unassigned.rank ∧ k.2.1 = .unassigned ∧ k.2.2.1 = .unassigned ∧ k.2.2.2 = .unassigned then connect here.2 opp.1 r
    else if k.1.rank < Mask.unassigned.rank ∧ k.2.1.rank > Mask.unassigned.rank ∧ k.2.2.1.rank > Mask.unassigned.rank ∧
        k.2.2.2 = .unassigned then connect prev.2 next.2 r
    else if k.1.rank < Mask.unassigned.rank ∧ k.2.1 = .unassigned ∧ k.2.2.1 = .unassigned ∧ k.2.2.2 = .registered then connect here.2 opp.2 r
    else faceDiagonal idx js r

/-- `ConnectFaceNodes`, `CasulliRefinement.cpp:298-377`, for a face with four nodes. -/
def connectFaceNodes (es : List Nat) (r : Run P) : Res (Run P) := do
  let a ← faceIndex r.mesh r.table es 0
  let b ← faceIndex r.mesh r.table es 1
  let c ← faceIndex r.mesh r.table es 2
  let d ← faceIndex r.mesh r.table es 3
  faceDiagonal [a, b, c, d] [0, 1, 2, 3] r

/-- The loop `CasulliRefinement.cpp:518-525`: none of the nodes is unassigned. -/
def faceActive (mask : List Mask) : List Nat → Res Bool
  | [] => .ok true
  | n :: ns => do
    let a ← vget mask n
    if a = .unassigned then .ok false else faceActive mask ns

/-- One round of the loop `CasulliRefinement.cpp:508-532`. -/
def connectFace (s : State) (f : Nat) (r : Run P) : Res (Run P) := do
  let ns ← vget s.facesNodes f
  if ns.length ≠ 4 then .ok r
  else do
    let act ← faceActive r.mask ns
    if act then do
      let es ← vget s.facesEdges f
      connectFaceNodes es r
    else .ok r

/-- `CasulliRefinement.cpp:401-416, 547-562`: join node `n` with the two new nodes at its end of edge `e`. -/
def connectBoth (n e : Nat) (r : Run P) : Res (Run P) := do
  let p ← getEdge r.mesh e
  let k := if p.1 = n then 0 else 1
  let x ← slot r.table e k
  let r1 ← connect n x r
  let y ← slot r1.table e (k + 2)
  connect n y r1

/-- `ConnectEdges`, `CasulliRefinement.cpp:379-421`, over the edges of the node; the boundary edges found are the second result (`newEdges`, up to
`edgeCount`). -/
def connectEdges (s : State) (n : Nat) : List Nat → Run P → Res (Run P × List Nat)
  | [], r => .ok (r, [])
  | e :: l, r => do
    let c ← vget s.numFaces e
    if c = 1 then do
      let q ← connectEdges s n l r
      .ok (q.1, e :: q.2)
    else do
      let r1 ← connectBoth n e r
      connectEdges s n l r1

/-- `CasulliRefinement.cpp:449-452` and so on: the new node in a place, if it is one of a boundary edge. -/
def generalNode (r : Run P) (e k old : Nat) : Res Nat := do
  let x ← slot r.table e k
  let a ← vget r.mask x
  .ok (if a = .newGeneral then x else old)

/-- One end of the edge, `CasulliRefinement.cpp:449-457` or `459-467`. -/
def generalEnd (r : Run P) (e k : Nat) (here : Bool) (old : Nat) : Res Nat :=
  if here then do
    let x ← generalNode r e k old
    generalNode r e (k + 2) x
  else .ok old

/-- One round of the loop `CasulliRefinement.cpp:447-468`. -/
def nodeToConnect (n : Nat) (r : Run P) (e : Nat) : Res Nat := do
  let p ← getEdge r.mesh e
  let x ← generalEnd r e 0 (p.1 = n) missing
  generalEnd r e 1 (p.2 = n) x

/-- The loop `CasulliRefinement.cpp:447-468`. -/
def nodesToConnect (n : Nat) (r : Run P) : List Nat → Res (List Nat)
  | [] => .ok []
  | e :: es => do
    let x ← nodeToConnect n r e
    let xs ← nodesToConnect n r es
    .ok (x :: xs)

/-- One round of the loop `CasulliRefinement.cpp:487-494`. -/
def connectOther (n x : Nat) (r : Run P) : Res (Run P) := if x ≠ missing ∧ x ≠ n then connect n x r else .ok r

/-- The loop `CasulliRefinement.cpp:487-494`. -/
def connectCorner (n : Nat) : List Nat → Run P → Res (Run P)
  | [], r => .ok r
  | x :: xs, r => do
    let r1 ← connectOther n x r
    connectCorner n xs r1

/-- `CasulliRefinement.cpp:470-484`: a boundary node that is no corner. -/
def connectBoundary (l : List Nat) (r : Run P) : Res (Run P) :=
  match l with
  | [a, b] => connectNew a b r
  | _ => .throw

/-- One round of the loop `CasulliRefinement.cpp:429-496` for a node with mask `a`. -/
def missingEdges (s : State) (n : Nat) (r : Run P) : Res (Run P) := do
  let a ← vget r.mask n
  if a.rank < Mask.boundary.rank then .ok r
  else do
    let l ← listedEdges r.mesh n
    let q ← connectEdges s n l r
    if q.2 = [] then .ok q.1
    else do
      let xs ← nodesToConnect n q.1 q.2
      if a ≠ .corner then connectBoundary xs q.1 else connectCorner n xs q.1

/-- The loop `CasulliRefinement.cpp:543-563`. -/
def connectAll (n : Nat) : List Nat → Run P → Res (Run P)
  | [], r => .ok r
  | e :: l, r => do
    let r1 ← connectBoth n e r
    connectAll n l r1

/-- One round of the loop `CasulliRefinement.cpp:536-564`. -/
def cornerEdges (n : Nat) (r : Run P) : Res (Run P) := do
  let a ← vget r.mask n
  if a ≠ .corner then .ok r
  else do
    let l ← listedEdges r.mesh n
    if l.length ≤ 4 then .ok r else connectAll n l r

/-- `ConnectNewNodes`, `CasulliRefinement.cpp:501-567`; `n` and `e` are the numbers of nodes and edges before the refinement. -/
def connectNewNodes (s : State) (n e : Nat) (r : Run P) : Res (Run P) := do
  let r1 ← forRange 0 e connectEdge r
  let r2 ← forRange 0 s.facesNodes.length (connectFace s) r1
  let r3 ← forRange 0 n (missingEdges s) r2
  forRange 0 n cornerEdges r3

/-! ## All of it -/

/-- One round of the loop `CasulliRefinement.cpp:212-218`. -/
def removeNode (n : Nat) (r : Run P) : Res (Run P) := do
  let a ← vget r.mask n
  if a.rank > Mask.unassigned.rank ∧ a.rank < Mask.corner.rank then do
    let q ← deleteNodeU r.mesh n
    .ok { r with acts := r.acts ++ q.1, mesh := q.2 }
  else .ok r

/-- `Compute`, `CasulliRefinement.cpp:41-55`, with `Administrate`, `206-222`: the undo actions and the mesh afterwards.  The faces found by the final
`Mesh2D::Administrate` are not modelled; `order` is the order in which it lists the edges of a node. -/
def compute (order : Nat → List Nat → List Nat) (mid : P → P → P) (m : Mesh P) (t : Tables P) (sel : Nat → Bool) : Res (List (Act P) × Mesh P) := do
  let mask ← initialMask m t sel
  let r ← computeNewNodes mid t ⟨[], m, mask, List.replicate m.edges.length [missing, missing, missing, missing]⟩
  let r1 ← connectNewNodes t.faces m.nodes.length m.edges.length r
  let r2 ← forRange 0 m.nodes.length removeNode r1
  let q ← Regions.administrateU order r2.mesh
  .ok (r2.acts ++ q.1, q.2)

end Verif.Casulli
