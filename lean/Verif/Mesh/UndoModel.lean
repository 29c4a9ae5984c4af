import Verif.Mesh.Model
import Verif.Undo.Model
/-!
# Undo actions of meshes

Models the `CommitAction`/`RestoreAction` functions of `Mesh.cpp:1190-1296`, the action classes in
`libs/MeshKernel/src/UndoActions`, and the editing functions of `Mesh.cpp` together with the
actions they return.

`FullUnstructuredGridUndo` is treated in `Verif.Mesh.FullUndo`; a `CompoundUndoAction` (and
`DeleteNodeAction`, which holds the actions of its deleted edges) is the list of its children,
nested compounds being flattened.
-/
namespace Verif.Mesh
variable {P : Type}

/-- Undo actions with the data they hold. -/
inductive Act (P : Type) where
  /-- `AddNodeAction`: node index and coordinates -/
  | addNode (id : Nat) (v : Option P)
  /-- `AddEdgeAction` -/
  | addEdge (id : Nat) (e : Edge)
  /-- `ResetNodeAction`: index, initial and updated value -/
  | resetNode (id : Nat) (ini upd : Option P)
  /-- `ResetEdgeAction` -/
  | resetEdge (id : Nat) (ini upd : Edge)
  /-- `DeleteEdgeAction`: index and the edge before deletion -/
  | deleteEdge (id : Nat) (e : Edge)
  /-- `DeleteNodeAction`, the node part: index and the coordinates before deletion -/
  | deleteNode (id : Nat) (v : Option P)
  /-- `NodeTranslationAction`: indices and saved values (`m_nodeIndices`, `m_nodes`).  When the
  action saves all nodes the indices are `0, 1, …` (`NodeTranslationAction.cpp:40-47, 66-80`). -/
  | translate (saved : List (Nat × Option P))
  deriving DecidableEq

/-- Write a node. -/
def setNode (m : Mesh P) (i : Nat) (v : Option P) : Res (Mesh P) := do
  let ns ← vset m.nodes i v
  .ok { m with nodes := ns }

/-- Write a node and reset its number of edges, `Mesh.cpp:1190-1195` and `1244-1249`. -/
def setNodeCount (m : Mesh P) (i : Nat) (v : Option P) : Res (Mesh P) := do
  let ns ← vset m.nodes i v
  let nu ← vset m.numEdges i 0
  .ok { m with nodes := ns, numEdges := nu }

/-- The loop of `NodeTranslationAction::Swap`, `NodeTranslationAction.cpp:70-73`: exchange the
saved values with the current ones. -/
def swapNodes : List (Nat × Option P) → List (Option P) → Res (List (Nat × Option P) × List (Option P))
  | [], ns => .ok ([], ns)
  | (i, v) :: r, ns => do
    let old ← vget ns i
    let ns1 ← vset ns i v
    let rs ← swapNodes r ns1
    .ok ((i, old) :: rs.1, rs.2)

/-- `NodeTranslationAction::Swap`, `NodeTranslationAction.cpp:56-75`: throws when fewer nodes are passed than were saved. -/
def translateC (m : Mesh P) (saved : List (Nat × Option P)) : Res (Act P × Mesh P) :=
  if m.nodes.length < saved.length then .throw
  else do
    let r ← swapNodes saved m.nodes
    .ok (.translate r.1, { m with nodes := r.2 })

/-- `Mesh::CommitAction`, `Mesh.cpp:1190-1231`. -/
def commitC (a : Act P) (m : Mesh P) : Res (Act P × Mesh P) :=
  match a with
  | .addNode i v => do let m' ← setNodeCount m i v; .ok (a, m')
  | .addEdge i e => do let m' ← resetEdge m i e; .ok (a, m')
  | .resetNode i _ u => do let m' ← setNode m i u; .ok (a, m')
  | .resetEdge i _ u => do let m' ← resetEdge m i u; .ok (a, m')
  | .deleteEdge i _ => do let m' ← resetEdge m i noEdge; .ok (a, m')
  | .deleteNode i _ => do let m' ← setNode m i none; .ok (a, m')
  | .translate s => translateC m s

/-- `Mesh::RestoreAction`, `Mesh.cpp:1244-1285`. -/
def restoreC (a : Act P) (m : Mesh P) : Res (Act P × Mesh P) :=
  match a with
  | .addNode i _ => do let m' ← setNodeCount m i none; .ok (a, m')
  | .addEdge i _ => do let m' ← resetEdge m i noEdge; .ok (a, m')
  | .resetNode i o _ => do let m' ← setNode m i o; .ok (a, m')
  | .resetEdge i o _ => do let m' ← resetEdge m i o; .ok (a, m')
  | .deleteEdge i e => do let m' ← resetEdge m i e; .ok (a, m')
  | .deleteNode i v => do let m' ← setNode m i v; .ok (a, m')
  | .translate s => translateC m s

/-- The mesh actions as an instance of the generic undo machinery.  A run that has thrown or met
undefined behaviour stays so. -/
def meshSem (P : Type) : Undo.Sem (Act P) (Res (Mesh P)) where
  doRestore a r := match r with
    | .ok m => (match restoreC a m with
      | .ok (b, m') => (b, .ok m')
      | .throw => (a, .throw)
      | .ub => (a, .ub))
    | .throw => (a, .throw)
    | .ub => (a, .ub)
  doCommit a r := match r with
    | .ok m => (match commitC a m with
      | .ok (b, m') => (b, .ok m')
      | .throw => (a, .throw)
      | .ub => (a, .ub))
    | .throw => (a, .throw)
    | .ub => (a, .ub)

/-! ## Editing functions with the actions they return -/

/-- `InsertNode`, `Mesh.cpp:468-480`. -/
def insertNodeU (m : Mesh P) (v : Option P) : Res (List (Act P) × Mesh P) :=
  .ok ([.addNode m.nodes.length v], (insertNode m v).2)

/-- `ConnectNodes`, `Mesh.cpp:482-496`; no action when the edge exists. -/
def connectNodesU (m : Mesh P) (s t : Nat) : Res (List (Act P) × Mesh P) := do
  let f ← findEdge m s t
  if f ≠ missing then .ok ([], m)
  else .ok ([.addEdge m.edges.length (s, t)], { m with edges := m.edges ++ [(s, t)] })

/-- `DeleteEdge`, `Mesh.cpp:520-531`. -/
def deleteEdgeU (m : Mesh P) (e : Nat) : Res (List (Act P) × Mesh P) :=
  if e = missing then .throw
  else do
    let old ← vget m.edges e
    let m1 ← resetEdge m e noEdge
    .ok ([.deleteEdge e old], m1)

/-- The loop `Mesh.cpp:542-546`. -/
def deleteEdgesU (m : Mesh P) : List Nat → Res (List (Act P) × Mesh P)
  | [] => .ok ([], m)
  | e :: es => do
    let r ← deleteEdgeU m e
    let rs ← deleteEdgesU r.2 es
    .ok (r.1 ++ rs.1, rs.2)

/-- `DeleteNode`, `Mesh.cpp:533-550`: the action is created with the coordinates of the node, the
actions of the edges are added to it.  Restoring restores the node first and then the edges in
reverse order (`DeleteNodeAction.cpp`), as for a compound with the node last. -/
def deleteNodeU (m : Mesh P) (n : Nat) : Res (List (Act P) × Mesh P) :=
  if n ≥ m.nodes.length then .throw
  else do
    let old ← vget m.nodes n
    let l ← vget m.nodesEdges n
    let r ← deleteEdgesU m l
    let m1 ← setNode r.2 n none
    .ok (r.1 ++ [.deleteNode n old], m1)

/-- `ResetNode`, `Mesh.cpp:498-508`. -/
def resetNodeU (m : Mesh P) (n : Nat) (v : Option P) : Res (List (Act P) × Mesh P) :=
  if n ≥ m.nodes.length then .throw
  else do
    let old ← vget m.nodes n
    let m1 ← setNode m n v
    .ok ([.resetNode n old v], m1)

/-- `ResetEdge`, `Mesh.cpp:758-763`. -/
def resetEdgeU (m : Mesh P) (e : Nat) (v : Edge) : Res (List (Act P) × Mesh P) := do
  let old ← vget m.edges e
  let m1 ← resetEdge m e v
  .ok ([.resetEdge e old v], m1)

/-- `MoveNode`, `Mesh.cpp:712-756`, and other functions that save nodes in a
`NodeTranslationAction` and then overwrite them: `new` gives, for the saved indices, the new
values.  Which nodes are moved, and where to, is not modelled. -/
def moveNodesU (m : Mesh P) (new : List (Nat × Option P)) : Res (List (Act P) × Mesh P) := do
  let r ← swapNodes new m.nodes
  .ok ([.translate r.1], { m with nodes := r.2 })

/-- `Mesh.cpp:341-351` with actions. -/
def mergeInnerU (second other : Nat) : List Nat → Mesh P → Res (List (Act P) × Mesh P)
  | [], m => .ok ([], m)
  | i :: is, m => do
    let e ← vget m.edges i
    if otherNode e other = second then do
      let r ← deleteEdgeU m i
      let rs ← mergeInnerU second other is r.2
      .ok (r.1 ++ rs.1, rs.2)
    else mergeInnerU second other is m

/-- `Mesh.cpp:333-353` with actions. -/
def mergeOuterU (first second : Nat) : List Nat → Mesh P → Res (List (Act P) × Mesh P)
  | [], m => .ok ([], m)
  | i :: is, m => do
    let e ← vget m.edges i
    let o := otherNode e first
    if o ≠ missing ∧ o ≠ second then do
      let lo ← listedEdges m o
      let r ← mergeInnerU second o lo m
      let rs ← mergeOuterU first second is r.2
      .ok (r.1 ++ rs.1, rs.2)
    else mergeOuterU first second is m

/-- `Mesh.cpp:379-386` with actions. -/
def redirectOneU (first second i : Nat) (e : Edge) (m : Mesh P) : Res (List (Act P) × Mesh P) :=
  if e.1 = first then resetEdgeU m i (second, e.2)
  else if e.2 = first then resetEdgeU m i (e.1, second)
  else .ok ([], m)

/-- `Mesh.cpp:371-390` with actions. -/
def redirectU (first second : Nat) : List Nat → Mesh P → Res (List (Act P) × List Nat × Mesh P)
  | [], m => .ok ([], [], m)
  | i :: is, m => do
    let e ← vget m.edges i
    if e.1 ≠ missing then do
      let r ← redirectOneU first second i e m
      let rs ← redirectU first second is r.2
      .ok (r.1 ++ rs.1, i :: rs.2.1, rs.2.2)
    else redirectU first second is m

/-- `Mesh.cpp:327-330` with actions. -/
def deleteIfFoundU (m : Mesh P) (ei : Nat) : Res (List (Act P) × Mesh P) :=
  if ei ≠ missing then deleteEdgeU m ei else .ok ([], m)

/-- `MergeTwoNodes`, `Mesh.cpp:295-406`, with the compound action it returns. -/
def mergeTwoNodesU (m : Mesh P) (first second : Nat) : Res (List (Act P) × Mesh P) :=
  if first = missing ∨ second = missing then .throw
  else if first ≥ m.nodes.length ∨ second ≥ m.nodes.length then .throw
  else if first = second then .ok ([], m)
  else do
    let ei ← findEdge m first second
    let r1 ← deleteIfFoundU m ei
    let lf ← listedEdges r1.2 first
    let r2 ← mergeOuterU first second lf r1.2
    let ls ← listedEdges r2.2 second
    let c2 ← collectEdges r2.2 ls
    let r3 ← redirectU first second lf r2.2
    let all := c2 ++ r3.2.1
    if all.length > maxEdgesPerNode then .ub
    else
      let m3 := r3.2.2
      let ne1 ← vset m3.nodesEdges second all
      let nu1 ← vset m3.numEdges second all.length
      let ne2 ← vset ne1 first []
      let nu2 ← vset nu1 first 0
      let r4 ← resetNodeU { m3 with nodesEdges := ne2, numEdges := nu2 } first none
      .ok (r1.1 ++ (r2.1 ++ (r3.1 ++ r4.1)), r4.2)

/-- The mesh edits offered by the API on single nodes and edges. -/
inductive MeshOp (P : Type) where
  | insertNode (v : Option P)
  | connectNodes (s t : Nat)
  | deleteEdge (e : Nat)
  | deleteNode (n : Nat)
  | resetNode (n : Nat) (v : Option P)
  | resetEdge (e : Nat) (v : Edge)
  | moveNodes (new : List (Nat × Option P))
  | mergeTwoNodes (a b : Nat)

/-- Perform an edit, keeping the actions. -/
def runOp (m : Mesh P) : MeshOp P → Res (List (Act P) × Mesh P)
  | .insertNode v => insertNodeU m v
  | .connectNodes s t => connectNodesU m s t
  | .deleteEdge e => deleteEdgeU m e
  | .deleteNode n => deleteNodeU m n
  | .resetNode n v => resetNodeU m n v
  | .resetEdge e v => resetEdgeU m e v
  | .moveNodes new => moveNodesU m new
  | .mergeTwoNodes a b => mergeTwoNodesU m a b

end Verif.Mesh
