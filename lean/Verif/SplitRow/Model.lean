import Verif.Mesh.UndoModel
import Verif.Faces.OrderModel
import Verif.Loop
/-!
# Model: splitting a row of quadrilaterals

`SplitRowColumnOfMesh.cpp` and `mkernel_mesh2d_split_row`.  The tables of faces are those of the last administration; they do not change while the
row is split.  The mean of two points is a parameter.  Running out of steps stands for a loop that does not end (`walk`); `Verif.SplitRow.Props`
shows that this does not happen.  The reservations of memory are left out.
-/
namespace Verif.SplitRow
open Verif.Mesh Verif.Faces

variable {P : Type}

/-- `IsQuadrilateral`, `SplitRowColumnOfMesh.cpp:246-249`. -/
def isQuad (s : State) (f : Nat) : Res Bool :=
  if f = missing then .ok false
  else do
    let ns ← vget s.facesNodes f
    .ok (decide (ns.length = 4))

/-- `Neighbour`, `Entities.hpp:67-70`. -/
def neighbour (p : Nat × Nat) (f : Nat) : Nat := if p.1 = f then p.2 else p.1

/-- `OppositeEdgeId`, `SplitRowColumnOfMesh.cpp:114-132`, with `GetEdgeIndex`, `Mesh.cpp:1042-1071`. -/
def opposite (numEdges : Nat) (s : State) (f e : Nat) : Res Nat :=
  if f = missing ∨ e = missing then .ok missing
  else if s.facesNodes.length ≤ f then .throw
  else if numEdges ≤ e then .throw
  else do
    let es ← vget s.facesEdges f
    match es.idxOf? e with
    | none => .ok missing
    | some i => vget es ((i + 2) % 4)

/-- `GetNextElement`, `SplitRowColumnOfMesh.cpp:95-112`. -/
def nextElement (numEdges : Nat) (s : State) (f e : Nat) : Res Nat :=
  if f = missing ∨ e = missing then .ok missing
  else do
    let q ← isQuad s f
    if !q then .ok missing
    else do
      let o ← opposite numEdges s f e
      let p ← vget s.edgesFaces o
      .ok (neighbour p f)

/-- `GetNextEdge`, `SplitRowColumnOfMesh.cpp:338-363`: the next element and edge. -/
def nextEdge (numEdges : Nat) (s : State) (f e : Nat) : Res (Nat × Nat) :=
  if e = missing then .ok (missing, missing)
  else do
    let q ← isQuad s f
    if !q then .ok (missing, missing)
    else do
      let o ← opposite numEdges s f e
      if o = missing then .ok (missing, missing)
      else do
        let p ← vget s.edgesFaces o
        .ok (neighbour p f, o)

/-- The loop `SplitRowColumnOfMesh.cpp:268-286`: the elements with the edges where they are entered, the last edge, and whether the first element was
met again.  The first argument bounds the number of rounds. -/
def walk (numEdges : Nat) (s : State) (first : Nat) : Nat → Nat → Nat → Res (List (Nat × Nat) × Nat × Bool)
  | 0, _, _ => .ub
  | k + 1, f, e => do
    let q ← isQuad s f
    if !q then .ok ([], e, false)
    else do
      let n ← nextEdge numEdges s f e
      if n.1 = first then .ok ([(f, e)], n.2, true)
      else do
        let r ← walk numEdges s first k n.1 n.2
        .ok ((f, e) :: r.1, r.2)

/-- `CollectElementsOneSideOfEdge`, `SplitRowColumnOfMesh.cpp:251-292`; `side` is `true` for side 1. -/
def collectSide (numEdges : Nat) (s : State) (e : Nat) (side : Bool) : Res (List Nat × List Nat × Bool) := do
  let p ← vget s.edgesFaces e
  let r ← walk numEdges s (if p.1 ≠ missing then p.1 else p.2) (2 * numEdges + 2) (if side then p.2 else p.1) e
  .ok (r.1.map Prod.fst, (if side then (r.1.map Prod.snd).drop 1 else r.1.map Prod.snd) ++ (if r.2.1 ≠ missing then [r.2.1] else []), r.2.2)

/-- `CollectElementsToSplit`, `SplitRowColumnOfMesh.cpp:294-336`. -/
def collect (numEdges : Nat) (s : State) (e : Nat) : Res (List Nat × List Nat) := do
  let p ← vget s.edgesFaces e
  let a ← if p.1 = missing then .ok ([], [], false) else collectSide numEdges s e false
  if a.2.2 then .ok (a.1, a.2.1)
  else if p.2 = missing then .ok (a.1, a.2.1)
  else do
    let b ← collectSide numEdges s e true
    .ok (b.1.reverse ++ a.1, b.2.1.reverse ++ a.2.1)

/-- The mesh, the undo actions and the edges to delete. -/
structure Work (P : Type) where
  mesh : Mesh P
  acts : List (Act P)
  del : List Nat

/-- `undoActions.Insert() = mesh.ConnectNodes(a, b)`. -/
def connect (a b : Nat) (w : Work P) : Res (Work P) := do
  let r ← connectNodesU w.mesh a b
  .ok { w with mesh := r.2, acts := w.acts ++ r.1 }

/-- `mesh.GetEdge(e)`, `Mesh.hpp:549-557`. -/
def getEdge (m : Mesh P) (e : Nat) : Res Edge := match m.edges[e]? with
  | some p => .ok p
  | none => .throw

/-- `mesh.Node(n)`, `Mesh.hpp:531-539`. -/
def getNode (m : Mesh P) (n : Nat) : Res (Option P) := match m.nodes[n]? with
  | some p => .ok p
  | none => .throw

/-- The mean of two points; simplified to a missing point if one of them is missing, which does not occur for edges of an administrated mesh. -/
def mean (mid : P → P → P) (a b : Option P) : Option P := match a, b with
  | some a, some b => some (mid a b)
  | _, _ => none

/-- `SplitEdge`, `SplitRowColumnOfMesh.cpp:134-148`. -/
def splitEdge (mid : P → P → P) (e : Nat) (w : Work P) : Res (Nat × Work P) := do
  let p ← getEdge w.mesh e
  let a ← getNode w.mesh p.1
  let b ← getNode w.mesh p.2
  let r ← insertNodeU w.mesh (mean mid a b)
  let w1 ← connect p.1 w.mesh.nodes.length { w with mesh := r.2, acts := w.acts ++ r.1 }
  let w2 ← connect w.mesh.nodes.length p.2 w1
  .ok (w.mesh.nodes.length, { w2 with del := w2.del ++ [e] })

/-- `SplitFirstLoopElement`, `SplitRowColumnOfMesh.cpp:150-163`, and lines 181-188: the two nodes. -/
def splitBoth (mid : P → P → P) (s : State) (f e : Nat) (w : Work P) : Res ((Nat × Nat) × Work P) := do
  let o ← opposite w.mesh.edges.length s f e
  let x ← splitEdge mid e w
  let y ← splitEdge mid o x.2
  let w1 ← connect x.1 y.1 y.2
  .ok ((x.1, y.1), w1)

/-- Join a node with the ends of an edge, `SplitRowColumnOfMesh.cpp:196-197, 221-222, 235-236`. -/
def fork (p : Edge) (x : Nat) (w : Work P) : Res (Work P) := do
  let w1 ← connect p.1 x w
  connect x p.2 w1

/-- `SplitElement`, `SplitRowColumnOfMesh.cpp:165-244`; `x` is `newNode`. -/
def splitElement (mid : P → P → P) (s : State) (f e x : Nat) (w : Work P) : Res (Nat × Work P) := do
  let p ← getEdge w.mesh e
  let fs ← vget s.edgesFaces e
  let next ← nextElement w.mesh.edges.length s f e
  let prev := (fs.1 + fs.2 + 2 ^ 32 - f) % 2 ^ 32
  let go ← isQuad s next
  let come ← isQuad s prev
  if prev = missing then
    if next = missing ∨ go then do
      let r ← splitBoth mid s f e w
      .ok (r.1.2, r.2)
    else do
      let o ← opposite w.mesh.edges.length s f e
      let q ← getEdge w.mesh o
      let y ← splitEdge mid e w
      let w1 ← fork q y.1 y.2
      .ok (missing, w1)
  else if come then
    if next = missing ∨ go then do
      let o ← opposite w.mesh.edges.length s f e
      let y ← splitEdge mid o w
      let w1 ← connect x y.1 y.2
      .ok (y.1, w1)
    else do
      let o ← opposite w.mesh.edges.length s f e
      let q ← getEdge w.mesh o
      let w1 ← fork q x w
      .ok (missing, w1)
  else if next = missing ∨ go then do
    let o ← opposite w.mesh.edges.length s f e
    let y ← splitEdge mid o w
    let w1 ← fork p y.1 y.2
    .ok (y.1, w1)
  else .ok (x, w)

/-- The loop `SplitRowColumnOfMesh.cpp:77-92` from element `i` on, after the first element of a loop; `first` is `firstNode`. -/
def splitFrom (mid : P → P → P) (s : State) (loop : Bool) (first : Nat) (edges : List Nat) : Nat → Nat → List Nat → Work P → Res (Work P)
  | _, _, [], w => .ok w
  | i, x, f :: fs, w =>
    if loop ∧ fs = [] then connect x first w
    else do
      let e ← vget edges i
      let r ← splitElement mid s f e x w
      splitFrom mid s loop first edges (i + 1) r.1 fs r.2

/-- `SplitAlongRow`, `SplitRowColumnOfMesh.cpp:66-93`. -/
def splitAlong (mid : P → P → P) (s : State) (elems edges : List Nat) (w : Work P) : Res (Work P) :=
  match edges.head?, edges.getLast? with
  | some a, some b =>
    if a = b then
      match elems with
      | [] => .ok w
      | f :: fs => do
        let r ← splitBoth mid s f a w
        splitFrom mid s true r.1.1 edges 1 r.1.2 fs r.2
    else splitFrom mid s false missing edges 0 missing elems w
  | _, _ => .ub

/-- `CanBeSplit`, `SplitRowColumnOfMesh.cpp:61-64`. -/
def canBeSplit (s : State) (e : Nat) : Res Bool :=
  if e = missing then .ok false
  else do
    let p ← vget s.edgesFaces e
    let a ← isQuad s p.1
    if a then .ok true else isQuad s p.2

/-- Both ends of the edge are valid, `SplitRowColumnOfMesh.cpp:52-59`: the second one is looked at if the first one is valid. -/
def endsValid (m : Mesh P) (p : Edge) : Res Bool := do
  let a ← getNode m p.1
  if a.isSome then do
    let b ← getNode m p.2
    .ok b.isSome
  else .ok false

/-- `Compute` up to the last administration, `SplitRowColumnOfMesh.cpp:7-49`; `none` if nothing is split. -/
def split (mid : P → P → P) (s : State) (m : Mesh P) (e : Nat) : Res (Option (List (Act P) × Mesh P)) :=
  if e = missing then .throw
  else if m.edges.length ≤ e then .throw
  else do
    let p ← getEdge m e
    if !hasNodes p then .throw
    else do
      let v ← endsValid m p
      if !v then .throw
      else do
        let c ← canBeSplit s e
        if !c then .ok none
        else do
          let r ← collect m.edges.length s e
          let w ← splitAlong mid s r.1 r.2 ⟨m, [], []⟩
          let d ← deleteEdgesU w.mesh w.del
          .ok (some (w.acts ++ d.1, d.2))

/-- `Compute`, `SplitRowColumnOfMesh.cpp:7-50`: the administration of line 46 has no undo actions. -/
def compute (mid : P → P → P) (order : Nat → List Nat → List Nat) (s : State) (m : Mesh P) (e : Nat) :
    Res (Option (List (Act P) × Mesh P)) := do
  let r ← split mid s m e
  match r with
  | none => .ok none
  | some x => do
    let m1 ← administrate order x.2
    .ok (some (x.1, m1))

/-- `mkernel_mesh2d_split_row`, `MeshKernel.cpp:512-540`. -/
def apiSplitRow (mid : P → P → P) (order : Nat → List Nat → List Nat) (s : State) (m : Mesh P) (firstNode secondNode : Nat) :
    Res (Option (List (Act P) × Mesh P)) := do
  let e ← findEdge m firstNode secondNode
  compute mid order s m e

end Verif.SplitRow
