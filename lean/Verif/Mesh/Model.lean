import Verif.Basic
/-!
# Model of the unstructured mesh (`Mesh`)

Models `libs/MeshKernel/src/Mesh.cpp`.  `P` is the type of coordinates of a valid node;
an invalid node (`Point` equal to the missing value) is `none`.  Projections, R-trees and
edge lengths are not part of this model (R-trees: see `Verif.Cache`).
-/
namespace Verif.Mesh

/-- `Edge` (`Entities.hpp`): a pair of node indices; an index may be `missing`. -/
abbrev Edge := Nat × Nat

/-- The edge value used for deleted edges. -/
def noEdge : Edge := (missing, missing)

/-- `Mesh` data members `m_nodes`, `m_edges`, `m_nodesEdges`, `m_nodesNumEdges` (`Mesh.hpp`). -/
structure Mesh (P : Type) where
  nodes : List (Option P)
  edges : List Edge
  nodesEdges : List (List Nat)
  numEdges : List Nat
  deriving DecidableEq, Repr

variable {P : Type}

/-- `m_maximumNumberOfEdgesPerNode` (`Mesh.hpp`). -/
def maxEdgesPerNode : Nat := 16

/-- `OtherNodeOfEdge` (`Entities.hpp`). -/
def otherNode (e : Edge) (n : Nat) : Nat := if n = e.1 then e.2 else e.1

/-- Neither index of the edge is missing. -/
def hasNodes (e : Edge) : Bool := e.1 != missing && e.2 != missing

/-- Validity of node `i`; used only below the guard `inBounds`. -/
def validNode (nodes : List (Option P)) (i : Nat) : Bool := (nodes[i]?.join).isSome

/-- The edges can be looked up without leaving the node vector.  Where this fails, the loops
over the edges read `m_nodes` out of range (undefined behaviour). -/
def inBounds (m : Mesh P) : Bool :=
  m.edges.all (fun e => !hasNodes e || (decide (e.1 < m.nodes.length) && decide (e.2 < m.nodes.length)))

/-- An edge whose two nodes exist and are valid: the negation of the condition in
`FindConnectedNodes`, `Mesh.cpp:149-152`, and `IsValidEdge`, `Mesh.cpp:1148-1149`. -/
def validEdge (nodes : List (Option P)) (e : Edge) : Bool :=
  hasNodes e && validNode nodes e.1 && validNode nodes e.2

/-- `FindConnectedNodes`, `Mesh.cpp:140-162`: is node `i` an end of a valid edge. -/
def connected (m : Mesh P) (i : Nat) : Bool :=
  m.edges.any (fun e => validEdge m.nodes e && (e.1 == i || e.2 == i))

/-- `numInvalidEdges` of `FindConnectedNodes`, `Mesh.cpp:154`. -/
def numInvalidEdges (m : Mesh P) : Nat := m.edges.countP (fun e => !validEdge m.nodes e)

/-- `InvalidateUnConnectedNodes`, `Mesh.cpp:164-188`: the node vector afterwards. -/
def connectedNodes (m : Mesh P) : List (Option P) :=
  m.nodes.mapIdx (fun i v => if connected m i then v else none)

/-- `numInvalidNodes` of `InvalidateUnConnectedNodes`, `Mesh.cpp:183-186`. -/
def numInvalidNodes (m : Mesh P) : Nat := (connectedNodes m).countP (fun v => !v.isSome)

/-- `SetUnConnectedNodesAndEdgesToInvalid`, `Mesh.cpp:249-293`. -/
def setUnconnectedInvalid (m : Mesh P) : Res (Mesh P) :=
  if !inBounds m then .ub
  else
    let m1 := { m with nodes := connectedNodes m }
    if numInvalidEdges m = 0 ∧ numInvalidNodes m = 0 then .ok m1
    else .ok { m1 with edges := m.edges.map (fun e => if validEdge m1.nodes e then e else noEdge) }

/-- Number of valid nodes before `i`: `validNodesIndices[i]` for a valid node,
`Mesh.cpp:208-219`. -/
def newIndex (nodes : List (Option P)) (i : Nat) : Nat := (nodes.take i).countP (·.isSome)

/-- `DeleteInvalidNodesAndEdges`, `Mesh.cpp:190-247`. -/
def deleteInvalid (m : Mesh P) : Res (Mesh P) :=
  if !inBounds m then .ub
  else
    let ns := connectedNodes m
    if numInvalidEdges m = 0 ∧ numInvalidNodes m = 0 then .ok { m with nodes := ns }
    else
      let es := m.edges.map (fun e =>
        if validEdge ns e then (newIndex ns e.1, newIndex ns e.2) else noEdge)
      .ok { m with nodes := ns.filter (·.isSome), edges := es.filter hasNodes }

/-- `GetValidNodeMapping`, `Mesh.cpp:1105-1121`: indices of the valid nodes. -/
def validNodeMapping (m : Mesh P) : List Nat :=
  (List.range m.nodes.length).filter (fun i => validNode m.nodes i)

/-- `GetValidEdgeMapping`, `Mesh.cpp:1123-1139`: indices of the valid edges. -/
def validEdgeMapping (m : Mesh P) : List Nat :=
  (List.range m.edges.length).filter (fun i => match m.edges[i]? with
    | some e => validEdge m.nodes e
    | none => false)

/-- The loop body searching the already listed edges of `n` for one that also touches `other`,
`Mesh.cpp:88-95` and `104-111`. -/
def alreadyAdded (edges : List Edge) (listed : List Nat) (other : Nat) : Bool :=
  listed.any (fun i => match edges[i]? with
    | some c => c.1 == other || c.2 == other
    | none => false)

/-- Append an edge to the list of node `n` (`m_nodesEdges[n][m_nodesNumEdges[n]++] = e`). -/
def pushEdge (adj : List (List Nat)) (n e : Nat) : List (List Nat) :=
  adj.set n ((adj[n]?.getD []) ++ [e])

/-- One iteration of the loop in `NodeAdministration`, `Mesh.cpp:71-117`.  `adj` is
`m_nodesEdges` with each list cut at `m_nodesNumEdges`; reading or writing it out of range is
excluded by `inBounds`. -/
def adminStep (edges : List Edge) (adj : List (List Nat)) (e : Nat) : List (List Nat) :=
  match edges[e]? with
  | none => adj
  | some (a, b) =>
    if a = missing ∨ b = missing then adj
    else if (adj[a]?.getD []).length ≥ maxEdgesPerNode ∨ (adj[b]?.getD []).length ≥ maxEdgesPerNode then adj
    else
      let adj1 := if alreadyAdded edges (adj[a]?.getD []) b then adj else pushEdge adj a e
      if alreadyAdded edges (adj1[b]?.getD []) a then adj1 else pushEdge adj1 b e

/-- `NodeAdministration`, `Mesh.cpp:68-123` (without the returned quadrilateral heuristic). -/
def nodeAdministration (edges : List Edge) (numNodes : Nat) : List (List Nat) :=
  (List.range edges.length).foldl (adminStep edges) (List.replicate numNodes [])

/-- `AdministrateNodesEdges`, `Mesh.cpp:864-883`.  `order n l` is the rearrangement performed by
`SortEdgesInCounterClockWiseOrder` (`Mesh.cpp:782-857`) on the list of node `n`; the angles are
not modelled. -/
def administrate (order : Nat → List Nat → List Nat) (m : Mesh P) : Res (Mesh P) :=
  match setUnconnectedInvalid m with
  | .throw => .throw
  | .ub => .ub
  | .ok m1 =>
    if m1.nodes.isEmpty || m1.edges.isEmpty then .ok m1
    else
      let adj := (nodeAdministration m1.edges m1.nodes.length).mapIdx
        (fun n l => if validNode m1.nodes n then order n l else l)
      .ok { m1 with nodesEdges := adj, numEdges := adj.map List.length }

/-! ## Editing -/

/-- `InsertNode`, `Mesh.cpp:468-480`, with `CommitAction(AddNodeAction)`, `Mesh.cpp:1190-1195`. -/
def insertNode (m : Mesh P) (p : Option P) : Nat × Mesh P :=
  (m.nodes.length,
   { m with
     nodes := m.nodes ++ [p]
     nodesEdges := (m.nodesEdges.take (m.nodes.length + 1)) ++ List.replicate (m.nodes.length + 1 - m.nodesEdges.length) []
     numEdges := ((m.numEdges.take (m.nodes.length + 1)) ++ List.replicate (m.nodes.length + 1 - m.numEdges.length) 0).set m.nodes.length 0 })

/-- Loop of `FindEdge`, `Mesh.cpp:623-632`: scan the listed edges of the first node. -/
def findEdgeLoop (edges : List Edge) (first second : Nat) : List Nat → Res Nat
  | [] => .ok missing
  | i :: is => do
    let e ← vget edges i
    if otherNode e first = second then .ok i else findEdgeLoop edges first second is

/-- `FindEdge`, `Mesh.cpp:616-635`. -/
def findEdge (m : Mesh P) (first second : Nat) : Res Nat :=
  if first = missing ∨ second = missing then .throw
  else do
    let n ← vget m.numEdges first
    let l ← vget m.nodesEdges first
    if n > l.length then .ub else findEdgeLoop m.edges first second (l.take n)

/-- `FindEdgeWithLinearSearch`, `Mesh.cpp:637-651`. -/
def findEdgeLinear (m : Mesh P) (first second : Nat) : Nat :=
  match m.edges.findIdx? (fun e => (e.1 == first && e.2 == second) || (e.2 == first && e.1 == second)) with
  | some i => i
  | none => missing

/-- `ConnectNodes`, `Mesh.cpp:482-496`, with `CommitAction(AddEdgeAction)`, `Mesh.cpp:1197-1201`. -/
def connectNodes (m : Mesh P) (s t : Nat) : Res (Nat × Mesh P) := do
  let f ← findEdge m s t
  if f ≠ missing then .ok (missing, m)
  else .ok (m.edges.length, { m with edges := m.edges ++ [(s, t)] })

/-- `DeleteEdge`, `Mesh.cpp:520-531`, with `CommitAction(DeleteEdgeAction)`, `Mesh.cpp:1216-1220`. -/
def deleteEdge (m : Mesh P) (e : Nat) : Res (Mesh P) :=
  if e = missing then .throw
  else do
    let es ← vset m.edges e noEdge
    .ok { m with edges := es }

/-- Delete a list of edges one after the other. -/
def deleteEdges (m : Mesh P) : List Nat → Res (Mesh P)
  | [] => .ok m
  | e :: es => do
    let m1 ← deleteEdge m e
    deleteEdges m1 es

/-- `DeleteNode`, `Mesh.cpp:533-550`, with `CommitAction(DeleteNodeAction)`, `Mesh.cpp:1222-1226`.
The loop runs over `m_nodesEdges[node]`, which the loop body does not change. -/
def deleteNode (m : Mesh P) (n : Nat) : Res (Mesh P) :=
  if n ≥ m.nodes.length then .throw
  else do
    let l ← vget m.nodesEdges n
    let m1 ← deleteEdges m l
    let ns ← vset m1.nodes n none
    .ok { m1 with nodes := ns }

/-- `ResetNode`, `Mesh.cpp:498-508`, with `CommitAction(ResetNodeAction)`, `Mesh.cpp:1203-1208`. -/
def resetNode (m : Mesh P) (n : Nat) (v : Option P) : Res (Mesh P) :=
  if n ≥ m.nodes.length then .throw else .ok { m with nodes := m.nodes.set n v }

/-- `ResetEdge`, `Mesh.cpp:758-763`, with `CommitAction(ResetEdgeAction)`, `Mesh.cpp:1210-1214`. -/
def resetEdge (m : Mesh P) (e : Nat) (v : Edge) : Res (Mesh P) := do
  let es ← vset m.edges e v
  .ok { m with edges := es }

/-- Inner loop of `MergeTwoNodes`, `Mesh.cpp:341-351`: delete the edges of `other` leading to
`second`. -/
def mergeInner (second other : Nat) : List Nat → Mesh P → Res (Mesh P)
  | [], m => .ok m
  | i :: is, m => do
    let e ← vget m.edges i
    if otherNode e other = second then do
      let m1 ← deleteEdge m i
      mergeInner second other is m1
    else mergeInner second other is m

/-- The first `m_nodesNumEdges[n]` entries of `m_nodesEdges[n]`. -/
def listedEdges (m : Mesh P) (n : Nat) : Res (List Nat) := do
  let k ← vget m.numEdges n
  let l ← vget m.nodesEdges n
  if k > l.length then .ub else .ok (l.take k)

/-- Outer loop of `MergeTwoNodes`, `Mesh.cpp:333-353`. -/
def mergeOuter (first second : Nat) : List Nat → Mesh P → Res (Mesh P)
  | [], m => .ok m
  | i :: is, m => do
    let e ← vget m.edges i
    let o := otherNode e first
    if o ≠ missing ∧ o ≠ second then do
      let lo ← listedEdges m o
      let m1 ← mergeInner second o lo m
      mergeOuter first second is m1
    else mergeOuter first second is m

/-- Collect the listed edges whose first node is not missing, `Mesh.cpp:359-368`; more than 16
entries overrun `secondNodeEdges`. -/
def collectEdges (m : Mesh P) : List Nat → Res (List Nat)
  | [] => .ok []
  | i :: is => do
    let e ← vget m.edges i
    let r ← collectEdges m is
    if e.1 ≠ missing then .ok (i :: r) else .ok r

/-- Redirect edge `i` (with value `e`) from `first` to `second`, `Mesh.cpp:379-386`. -/
def redirectOne (first second i : Nat) (e : Edge) (m : Mesh P) : Res (Mesh P) :=
  if e.1 = first then resetEdge m i (second, e.2)
  else if e.2 = first then resetEdge m i (e.1, second)
  else .ok m

/-- Loop `Mesh.cpp:371-390`: redirect the remaining edges of `first` to `second`. -/
def redirect (first second : Nat) : List Nat → Mesh P → Res (List Nat × Mesh P)
  | [], m => .ok ([], m)
  | i :: is, m => do
    let e ← vget m.edges i
    if e.1 ≠ missing then do
      let m1 ← redirectOne first second i e m
      let r ← redirect first second is m1
      .ok (i :: r.1, r.2)
    else redirect first second is m

/-- `Mesh.cpp:327-330`. -/
def deleteIfFound (m : Mesh P) (ei : Nat) : Res (Mesh P) :=
  if ei ≠ missing then deleteEdge m ei else .ok m

/-- `MergeTwoNodes`, `Mesh.cpp:295-406`. -/
def mergeTwoNodes (m : Mesh P) (first second : Nat) : Res (Mesh P) :=
  if first = missing ∨ second = missing then .throw
  else if first ≥ m.nodes.length ∨ second ≥ m.nodes.length then .throw
  else if first = second then .ok m
  else do
    let ei ← findEdge m first second
    let m1 ← deleteIfFound m ei
    let lf ← listedEdges m1 first
    let m2 ← mergeOuter first second lf m1
    let ls ← listedEdges m2 second
    let c2 ← collectEdges m2 ls
    let r ← redirect first second lf m2
    let all := c2 ++ r.1
    if all.length > maxEdgesPerNode then .ub
    else
      let m3 := r.2
      let ne1 ← vset m3.nodesEdges second all
      let nu1 ← vset m3.numEdges second all.length
      let ne2 ← vset ne1 first []
      let nu2 ← vset nu1 first 0
      resetNode { m3 with nodesEdges := ne2, numEdges := nu2 } first none

/-- `operator+=`, `Mesh.cpp:971-1012`, before the final `Administrate`; the two projections are
assumed equal (otherwise it throws).  Node indices are 32 bit, hence the remainder. -/
def joinRaw (m rhs : Mesh P) : Mesh P :=
  if rhs.nodes.length = 0 ∨ rhs.edges.length = 0 then m
  else
    let n := m.nodes.length
    { m with
      nodes := m.nodes ++ rhs.nodes
      edges := m.edges ++ rhs.edges.map (fun e => ((e.1 + n) % 2 ^ 32, (e.2 + n) % 2 ^ 32)) }

end Verif.Mesh
