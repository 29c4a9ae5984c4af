import Verif.Curvi.EditModel
/-!
# Model: searching in a curvilinear grid

Models the search trees of `CurvilinearGrid`: `BuildTree`, `FindLocationIndex`, `GetEdgeNodeIndices`,
`ComputeBlockFromCornerPoints`, `DeleteNode` and `MoveNode` for points (`CurvilinearGrid.cpp:251-344`, `1042-1088`), the
lists the trees are built from (`CurvilinearGrid.cpp:1277-1337`, `1434-1454`), the flags that tell that a tree is out of
date, the one remembered box, and the table that turns the number of a node into its row and column.

A search tree is modelled by the list of points it was built from with their numbers (`RTree.hpp:179-197`).  The search
for the nearest point, the comparison of boxes and the arithmetic of centres are parameters.
-/
namespace Verif.CurviSearch
open Verif.Curvi
variable {P B : Type}

/-- `Location`, `Definitions.hpp:74-80`, without `Unknown`, for which `BuildTree` throws. -/
inductive Loc where
  | faces
  | nodes
  | edges
  deriving DecidableEq, Repr

/-- What the model does not compute. -/
structure Eye (P B : Type) where
  /-- `BoundingBox::Contains`, `BoundingBox.hpp:101-107` -/
  contains : B → P → Bool
  /-- `BoundingBox::operator!=` is false, `BoundingBox.hpp:92-95` -/
  sameBox : B → B → Bool
  /-- the default box, `BoundingBox.hpp:43-44` -/
  whole : B
  /-- `(a + b) * 0.5`, `CurvilinearGrid.cpp:1288`; also computed for invalid nodes -/
  mid : P → P → P
  /-- a quarter of the sum, `CurvilinearGrid.cpp:1443-1450`; also computed for invalid nodes -/
  centre : P → P → P → P → P
  /-- `SearchNearestPoint`, `RTree.hpp:264-282`: one result at most -/
  nearest : List (P × Nat) → P → Option Nat

/-- A grid with `m_gridIndices`, `m_edges`, the trees, their flags and `m_boundingBoxCache`,
`CurvilinearGrid.hpp:502-519`. -/
structure Seen (P B : Type) where
  grid : Grid P
  table : List (Nat × Nat)
  edges : List (Nat × Nat)
  nodesDirty : Bool
  edgesDirty : Bool
  facesDirty : Bool
  nodesTree : List (P × Nat)
  edgesTree : List (P × Nat)
  facesTree : List (P × Nat)
  box : B

/-- `BuildTreeFromVectorWithinBoundingBox`, `RTree.hpp:179-197`: the valid points in the box. -/
def buildPoints [PointLike P] (o : Eye P B) (points : List P) (b : B) : List (P × Nat) :=
  points.zipIdx.filter (fun v => valid v.1 && o.contains b v.1)

/-- `ComputeEdgeIndices`, `CurvilinearGrid.cpp:1314-1337`. -/
def edgeIndices (g : Grid P) : Res (List ((Nat × Nat) × (Nat × Nat))) := do
  let s ← forRange 0 (g.numN - 1) (fun n => forRange 0 g.numM (fun m => store ((n, m), (n + 1, m))))
    (List.replicate (g.numM * (g.numN - 1) + (g.numM - 1) * g.numN) ((missing, missing), (missing, missing)), 0)
  let r ← forRange 0 g.numN (fun n => forRange 0 (g.numM - 1) (fun m => store ((n, m), (n, m + 1)))) s
  .ok r.1

/-- One round of the loop in `ComputeEdgesCenters`, `CurvilinearGrid.cpp:1286-1288`. -/
def edgeCentre (o : Eye P B) (g : Grid P) (e : (Nat × Nat) × (Nat × Nat)) : Res P := do
  let a ← getNode g e.1.1 e.1.2
  let b ← getNode g e.2.1 e.2.2
  .ok (o.mid a b)

/-- The loop in `ComputeEdgesCenters`, `CurvilinearGrid.cpp:1284-1290`. -/
def edgeCentresOf (o : Eye P B) (g : Grid P) : List ((Nat × Nat) × (Nat × Nat)) → Res (List P)
  | [] => .ok []
  | e :: es => do
    let c ← edgeCentre o g e
    let cs ← edgeCentresOf o g es
    .ok (c :: cs)

/-- `ComputeEdgesCenters`, `CurvilinearGrid.cpp:1277-1293`. -/
def edgeCentres (o : Eye P B) (g : Grid P) : Res (List P) := do
  let es ← edgeIndices g
  edgeCentresOf o g es

/-- One round of the loop in `ComputeFaceCenters`, `CurvilinearGrid.cpp:1443-1450`. -/
def faceCentre (o : Eye P B) (g : Grid P) (n m : Nat) (l : List P) : Res (List P) := do
  let a ← getNode g n m
  let b ← getNode g n (m + 1)
  let c ← getNode g (n + 1) (m + 1)
  let d ← getNode g (n + 1) m
  .ok (l ++ [o.centre a b c d])

/-- `ComputeFaceCenters`, `CurvilinearGrid.cpp:1434-1454`, for grids with a row and a column (the API functions refuse
others). -/
def faceCentres (o : Eye P B) (g : Grid P) : Res (List P) :=
  forRange 0 (g.numN - 1) (fun n => forRange 0 (g.numM - 1) (fun m => faceCentre o g n m)) []

/-- `BuildTree`, `CurvilinearGrid.cpp:251-287`. -/
def buildTree [PointLike P] (o : Eye P B) (s : Seen P B) (l : Loc) (b : B) : Res (Seen P B) :=
  match l with
  | .faces =>
    if s.facesDirty || !o.sameBox s.box b then do
      let c ← faceCentres o s.grid
      .ok { s with facesTree := buildPoints o c b, facesDirty := false, box := b }
    else .ok s
  | .nodes =>
    if s.nodesDirty || !o.sameBox s.box b then do
      let c ← computeNodes s.grid
      .ok { s with nodesTree := buildPoints o c b, nodesDirty := false, box := b }
    else .ok s
  | .edges =>
    if s.edgesDirty || !o.sameBox s.box b then do
      let e ← computeEdges s.grid
      let c ← edgeCentres o s.grid
      .ok { s with edges := e, edgesTree := buildPoints o c b, edgesDirty := false, box := b }
    else .ok s

/-- `m_RTrees.at(location)`. -/
def Seen.tree (s : Seen P B) : Loc → List (P × Nat)
  | .faces => s.facesTree
  | .nodes => s.nodesTree
  | .edges => s.edgesTree

/-- `CurvilinearGrid.cpp:294-307`. -/
def choose (o : Eye P B) (t : List (P × Nat)) (p : P) : Res Nat :=
  if t.isEmpty then .throw
  else match o.nearest t p with
    | none => .throw
    | some i => .ok i

/-- `FindLocationIndex`, `CurvilinearGrid.cpp:289-308`. -/
def find [PointLike P] (o : Eye P B) (s : Seen P B) (p : P) (l : Loc) (b : B) : Res (Nat × Seen P B) := do
  let s1 ← buildTree o s l b
  let i ← choose o (s1.tree l) p
  .ok (i, s1)

/-- `mkernel_curvilinear_get_location_index`, `MeshKernel.cpp:874-907`. -/
def getLocationIndex [PointLike P] (o : Eye P B) (s : Seen P B) (p : P) (l : Loc) (b : B) : Res (Nat × Seen P B) :=
  if numNodes s.grid = 0 then .throw
  else find o s p l b

/-- `m_gridIndices[FindLocationIndex(point, Location::Nodes)]`, `CurvilinearGrid.cpp:1045-1046`. -/
def nodeAt [PointLike P] (o : Eye P B) (s : Seen P B) (p : P) : Res ((Nat × Nat) × Seen P B) := do
  let r ← find o s p .nodes o.whole
  let v ← vget r.2.table r.1
  .ok (v, r.2)

/-- `ComputeBlockFromCornerPoints`, `CurvilinearGrid.cpp:336-344`. -/
def blockAt [PointLike P] (o : Eye P B) (s : Seen P B) (p q : P) : Res (((Nat × Nat) × (Nat × Nat)) × Seen P B) := do
  let a ← find o s p .nodes o.whole
  let b ← find o a.2 q .nodes o.whole
  let v ← vget b.2.table a.1
  let w ← vget b.2.table b.1
  let r ← blockFromCorners b.2.grid v w
  .ok (r, b.2)

/-- The ends of the edge the search found, `CurvilinearGrid.cpp:321-325`. -/
def edgeNodes (s : Seen P B) : Option Nat → Res ((Nat × Nat) × (Nat × Nat))
  | none => .ok ((missing, missing), (missing, missing))
  | some i => do
    let e ← vget s.edges i
    let a ← vget s.table e.1
    let b ← vget s.table e.2
    .ok (a, b)

/-- `GetEdgeNodeIndices`, `CurvilinearGrid.cpp:310-326`. -/
def edgeAt [PointLike P] (o : Eye P B) (s : Seen P B) (p : P) : Res (((Nat × Nat) × (Nat × Nat)) × Seen P B) := do
  let s1 ← buildTree o s .edges o.whole
  let e ← edgeNodes s1 (o.nearest s1.edgesTree p)
  .ok (e, s1)

/-- Nodes are written, or the grid is otherwise changed, without a new table: the non-constant `GetNode`,
`CurvilinearGrid.hpp:533-551` and `568-579`, sets all flags. -/
def written (s : Seen P B) (g : Grid P) : Seen P B :=
  { s with grid := g, nodesDirty := true, edgesDirty := true, facesDirty := true }

/-- The grid is changed and the table computed again, as in `SetGridNodes`, `CurvilinearGrid.cpp:144-150`. -/
def renumbered (s : Seen P B) (g : Grid P) : Res (Seen P B) := do
  let t ← computeNodeIndices g
  .ok { s with grid := g, table := t, nodesDirty := true, edgesDirty := true, facesDirty := true }

/-- `MoveNode`, `CurvilinearGrid.cpp:1082-1088`, behind `mkernel_curvilinear_move_node`. -/
def moveAt [PointLike P] (o : Eye P B) (s : Seen P B) (p q : P) : Res (Seen P B) := do
  let v ← nodeAt o s p
  let r ← moveNode v.2.grid v.1.1 v.1.2 q
  .ok (written v.2 r.1)

/-- `DeleteNode`, `CurvilinearGrid.cpp:1042-1064`, behind `mkernel_curvilinear_delete_node`.  (The table is not computed
again when nothing is deleted; it would be the same.) -/
def deleteAt [PointLike P] (o : Eye P B) (s : Seen P B) (p : P) : Res (Seen P B) := do
  let v ← nodeAt o s p
  let r ← deleteNode v.2.grid v.1.1 v.1.2
  match r.2 with
  | none => .ok { v.2 with grid := r.1 }
  | some _ => renumbered v.2 r.1

/-- What happens to a grid: a search, a change without a new table (moving nodes, attraction, smoothing, undo of a block,
but also mirroring a line outside), or one with (`SetGridNodes`, `InsertFace`, undo of refinement and of added lines). -/
inductive Step (P B : Type) where
  | query (l : Loc) (b : B)
  | write (g : Grid P)
  | renumber (g : Grid P)

/-- One step. -/
def step [PointLike P] (o : Eye P B) (s : Seen P B) : Step P B → Res (Seen P B)
  | .query l b => buildTree o s l b
  | .write g => .ok (written s g)
  | .renumber g => renumbered s g

/-- A history. -/
def run [PointLike P] (o : Eye P B) (s : Seen P B) : List (Step P B) → Res (Seen P B)
  | [] => .ok s
  | a :: as => do
    let s1 ← step o s a
    run o s1 as

/-- A new grid: the flags are initialised to `true`, `CurvilinearGrid.hpp:509-511`, and the table is computed,
`CurvilinearGrid.cpp:150`. -/
def fresh (g : Grid P) (b : B) : Res (Seen P B) := do
  let t ← computeNodeIndices g
  .ok ⟨g, t, [], true, true, true, [], [], [], b⟩

end Verif.CurviSearch
