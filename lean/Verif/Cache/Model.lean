import Verif.Mesh.UndoModel
/-!
# Model: the cached search trees of a mesh

Models `Mesh::BuildTree` and `Mesh::FindLocationIndex` (`Mesh.cpp:1152-1186`, `673-710`), the flags that
tell that a tree is out of date, and how the editing functions and undo actions set them.

A search tree is modelled by the list of points it was built from with their indices
(`RTree.hpp:179-197`).  The search for the nearest point, the midpoint of two nodes and the
circumcentres of the faces are parameters.
-/
namespace Verif.Cache
open Verif.Mesh
variable {P B : Type}

/-- `Location`, `Entities.hpp`, without `Unknown`, for which `BuildTree` throws. -/
inductive Loc where
  | faces
  | nodes
  | edges
  deriving DecidableEq, Repr

/-- What the model does not compute. -/
structure Geo (P B : Type) where
  /-- `BoundingBox::Contains`, `BoundingBox.hpp:101-107` -/
  contains : B → P → Bool
  /-- the midpoint of two nodes, `Operations.cpp:1490`; also computed for invalid nodes -/
  mid : Option P → Option P → Option P
  /-- `m_facesCircumcenters` after `Administrate` -/
  faces : Mesh P → List (Option P)
  /-- order of the edges around nodes, see `Verif.Mesh.administrate` -/
  order : Nat → List Nat → List Nat
  /-- `SearchNearestPoint`, `RTree.hpp:264-282`: one result at most -/
  nearest : List (P × Nat) → P → Option Nat
  /-- `BoundingBox::operator!=` is false, `BoundingBox.hpp:92-95`; corners are compared up to a tolerance -/
  sameBox : B → B → Bool

/-- A mesh with its trees, the flags `m_nodesRTreeRequiresUpdate`, … and `m_boundingBoxCache`
(`Mesh.hpp:503-505`). -/
structure Cached (P B : Type) where
  mesh : Mesh P
  nodesDirty : Bool
  edgesDirty : Bool
  facesDirty : Bool
  nodesTree : List (P × Nat)
  edgesTree : List (P × Nat)
  facesTree : List (P × Nat)
  box : B
  deriving DecidableEq

/-- `BuildTreeFromVectorWithinBoundingBox`, `RTree.hpp:179-197`: the valid points in the box. -/
def buildPoints (g : Geo P B) (points : List (Option P)) (b : B) : List (P × Nat) :=
  points.zipIdx.filterMap (fun v => match v.1 with
    | some p => if g.contains b p then some (p, v.2) else none
    | none => none)

/-- One round of `ComputeEdgeCenters`, `Operations.cpp:1480-1491`. -/
def edgeCentre (g : Geo P B) (nodes : List (Option P)) (e : Edge) : Res (Option P) :=
  if e.1 = missing ∨ e.2 = missing then .ok none
  else do
    let a ← vget nodes e.1
    let b ← vget nodes e.2
    .ok (g.mid a b)

/-- `ComputeEdgeCenters`, `Operations.cpp:1474-1494`. -/
def edgeCentres (g : Geo P B) (nodes : List (Option P)) : List Edge → Res (List (Option P))
  | [] => .ok []
  | e :: es => do
    let c ← edgeCentre g nodes e
    let cs ← edgeCentres g nodes es
    .ok (c :: cs)

/-- `BuildTree`, `Mesh.cpp:1152-1186`. -/
def buildTree (g : Geo P B) (s : Cached P B) (l : Loc) (b : B) : Res (Cached P B) :=
  match l with
  | .faces =>
    if s.facesDirty || !g.sameBox s.box b then do
      let m ← administrate g.order s.mesh
      .ok { s with mesh := m, facesTree := buildPoints g (g.faces m) b, facesDirty := false, box := b }
    else .ok s
  | .nodes =>
    if s.nodesDirty || !g.sameBox s.box b then
      .ok { s with nodesTree := buildPoints g s.mesh.nodes b, nodesDirty := false, box := b }
    else .ok s
  | .edges =>
    if s.edgesDirty || !g.sameBox s.box b then do
      let c ← edgeCentres g s.mesh.nodes s.mesh.edges
      .ok { s with edgesTree := buildPoints g c b, edgesDirty := false, box := b }
    else .ok s

/-- `m_RTrees.at(location)`. -/
def Cached.tree (s : Cached P B) : Loc → List (P × Nat)
  | .faces => s.facesTree
  | .nodes => s.nodesTree
  | .edges => s.edgesTree

/-- The choice among the results of the search, `Mesh.cpp:685-709`; there is at most one result. -/
def choose (g : Geo P B) (t : List (P × Nat)) (p : P) (mask : List Bool) : Res Nat :=
  if t.isEmpty then .throw
  else match g.nearest t p with
    | none => .throw
    | some i =>
      if mask.isEmpty then .ok i
      else do
        let ok ← vget mask i
        if ok then .ok i else .throw

/-- `FindLocationIndex`, `Mesh.cpp:673-710`. -/
def findLocationIndex (g : Geo P B) (s : Cached P B) (p : P) (l : Loc) (mask : List Bool) (b : B) :
    Res (Nat × Cached P B) := do
  let s1 ← buildTree g s l b
  let i ← choose g (s1.tree l) p mask
  .ok (i, s1)

/-- Is the nodes flag set by `CommitAction` and `RestoreAction` of the action, `Mesh.cpp:1190-1231` and
`1244-1285`. -/
def setsNodes : Act P → Bool
  | .addNode _ _ => true
  | .addEdge _ _ => false
  | .resetNode _ _ _ => true
  | .resetEdge _ _ _ => false
  | .deleteEdge _ _ => false
  | .deleteNode _ _ => true
  | .translate _ => false

/-- Is the edges flag set by `CommitAction` and `RestoreAction` of the action, `Mesh.cpp:1190-1231` and
`1244-1285`. -/
def setsEdges : Act P → Bool
  | .addNode _ _ => false
  | .addEdge _ _ => true
  | .resetNode _ _ _ => true
  | .resetEdge _ _ _ => true
  | .deleteEdge _ _ => true
  | .deleteNode _ _ => false
  | .translate _ => false

/-- Does the editing function set both flags itself: `MoveNode`, `Mesh.cpp:753-754`.  (`MergeTwoNodes` does,
too, `Mesh.cpp:403-404`, after a `ResetNode` that has set both.) -/
def setsBoth : MeshOp P → Bool
  | .moveNodes _ => true
  | _ => false

/-- An editing function of `Mesh.cpp` (see `Verif.Mesh.runOp`): it commits the actions it returns. -/
def edit (s : Cached P B) (o : MeshOp P) : Res (Cached P B) := do
  let r ← runOp s.mesh o
  .ok { s with
    mesh := r.2
    nodesDirty := s.nodesDirty || setsBoth o || r.1.any setsNodes
    edgesDirty := s.edgesDirty || setsBoth o || r.1.any setsEdges }

/-- Redo of an action: `CommitAction`. -/
def commit (s : Cached P B) (a : Act P) : Res (Cached P B) := do
  let r ← commitC a s.mesh
  .ok { s with mesh := r.2, nodesDirty := s.nodesDirty || setsNodes a, edgesDirty := s.edgesDirty || setsEdges a }

/-- Undo of an action: `RestoreAction`. -/
def restore (s : Cached P B) (a : Act P) : Res (Cached P B) := do
  let r ← restoreC a s.mesh
  .ok { s with mesh := r.2, nodesDirty := s.nodesDirty || setsNodes a, edgesDirty := s.edgesDirty || setsEdges a }

/-- What happens to a mesh. -/
inductive Op (P B : Type) where
  | edit (o : MeshOp P)
  | commit (a : Act P)
  | restore (a : Act P)
  | query (l : Loc) (b : B)

/-- One step. -/
def step (g : Geo P B) (s : Cached P B) : Op P B → Res (Cached P B)
  | .edit o => edit s o
  | .commit a => commit s a
  | .restore a => restore s a
  | .query l b => buildTree g s l b

/-- A sequence of steps. -/
def run (g : Geo P B) (s : Cached P B) : List (Op P B) → Res (Cached P B)
  | [] => .ok s
  | o :: os => do
    let s1 ← step g s o
    run g s1 os

/-- The state of a new mesh, `Mesh.hpp:503-505`: nothing is built. -/
def fresh (m : Mesh P) (b : B) : Cached P B := ⟨m, true, true, true, [], [], [], b⟩

/-- `mkernel_mesh2d_get_node_index`, `MeshKernel.cpp:2820-2825`, with `FindNodeCloseToAPoint`, `Mesh.cpp:653-671`:
`whole` is the default box, `close` the search within the radius.  The box passed by the caller is
not used. -/
def getNodeIndex (g : Geo P B) (whole : B) (close : List (P × Nat) → P → Option Nat) (s : Cached P B) (p : P)
    (_box : B) : Res (Nat × Cached P B) :=
  if s.mesh.nodes.isEmpty then .throw
  else do
    let s1 ← buildTree g s .nodes whole
    let s2 ← buildTree g s1 .nodes whole
    if s2.nodesTree.isEmpty then .throw
    else match close s2.nodesTree p with
      | some i => .ok (i, s2)
      | none => .ok (missing, s2)

end Verif.Cache
