import Verif.Curvi.Grid
/-!
# Model: boundary polygons of a curvilinear grid

Models `ComputeBoundaryEdges` and `ComputeBoundaryPolygons` (`CurvilinearGrid.cpp:1340-1432`).  A
`std::set` of edges is the list of its elements in increasing order.
-/
namespace Verif.Curvi
variable {P : Type} [PointLike P]

/-- `CurvilinearGridNodeIndices` -/
abbrev Node := Nat × Nat
/-- `CurvilinearEdge`, a pair of nodes -/
abbrev CEdge := Node × Node

/-- `operator<=>` of nodes is `less`, `CurvilinearGridNodeIndices.hpp:72-79`. -/
def ltNode (a b : Node) : Bool := if a.1 = b.1 then decide (a.2 < b.2) else decide (a.1 < b.1)

/-- `operator<` of `std::pair`. -/
def ltEdge (a b : CEdge) : Bool := if a.1 = b.1 then ltNode a.2 b.2 else ltNode a.1 b.1

/-- `std::make_pair(std::min(a, b), std::max(a, b))`, `CurvilinearGrid.cpp:1367-1368`. -/
def mkEdge (a b : Node) : CEdge := (if ltNode b a then b else a, if ltNode a b then b else a)

/-- `boundaryEdges.insert(edge)` of an edge that is not in the set. -/
def insertEdge (e : CEdge) : List CEdge → List CEdge
  | [] => [e]
  | x :: xs => if ltEdge e x then e :: x :: xs else x :: insertEdge e xs

/-- Erase the edge if it is there and insert it otherwise, `CurvilinearGrid.cpp:1370-1378`. -/
def toggle (l : List CEdge) (e : CEdge) : List CEdge := if e ∈ l then l.erase e else insertEdge e l

/-- The corners of a face, `CurvilinearGrid.cpp:1350-1353`. -/
def corners (n m : Nat) : List Node := [(n, m), (n, m + 1), (n + 1, m + 1), (n + 1, m)]

/-- `std::ranges::all_of(faceIndices, …)`, `CurvilinearGrid.cpp:1355-1356`: stops at the first invalid node. -/
def allValid (g : Grid P) : List Node → Res Bool
  | [] => .ok true
  | v :: vs => do
    let p ← getNode g v.1 v.2
    if valid p then allValid g vs else .ok false

/-- The loop over the sides, `CurvilinearGrid.cpp:1361-1379`. -/
def toggleSides (n m : Nat) (l : List CEdge) : List CEdge :=
  let c := corners n m
  (List.range 4).foldl (fun l i => toggle l (mkEdge (c.getD i (0, 0)) (c.getD ((i + 1) % 4) (0, 0)))) l

/-- The body of the loops, `CurvilinearGrid.cpp:1348-1379`. -/
def boundaryFace (g : Grid P) (n m : Nat) (l : List CEdge) : Res (List CEdge) := do
  let v ← allValid g (corners n m)
  if v then .ok (toggleSides n m l) else .ok l

/-- `ComputeBoundaryEdges`, `CurvilinearGrid.cpp:1340-1384`. -/
def computeBoundaryEdges (g : Grid P) (ll ur : Node) : Res (List CEdge) :=
  forRange ll.1 ur.1 (fun n => forRange ll.2 ur.2 (boundaryFace g n)) []

/-- The node is an end of the edge, `CurvilinearGrid.cpp:1411-1412`. -/
def hasEnd (v : Node) (e : CEdge) : Bool := decide (e.1 = v) || decide (e.2 = v)

/-- The other end, `CurvilinearGrid.cpp:1414`. -/
def otherEnd (e : CEdge) (v : Node) : Node := if e.1 = v then e.2 else e.1

/-- The inner loop with what follows it, `CurvilinearGrid.cpp:1405-1417`, without the points: the nodes and the edges left.  Following an
iterator at the end of the set is undefined.  Each round but the last erases an edge: with more rounds than edges the
loop would not end (`ub`). -/
def walk (start : Node) : Nat → Node → CEdge → List CEdge → Res (List Node × List CEdge)
  | 0, _, _, _ => .ub
  | k + 1, shared, cur, l =>
    if shared = start then .ok ([start], l.erase cur)
    else
      match (l.erase cur).find? (hasEnd shared) with
      | none => .ub
      | some e => do
        let r ← walk start k (otherEnd e shared) e (l.erase cur)
        .ok (shared :: r.1, r.2)

/-- The outer loop, `CurvilinearGrid.cpp:1396-1429`: the nodes, with `none` for the separator. -/
def walks : Nat → List CEdge → Res (List (Option Node))
  | 0, _ => .ub
  | _ + 1, [] => .ok []
  | k + 1, e :: l => do
    let r ← walk e.1 (l.length + 1) e.2 e (e :: l)
    match r.2 with
    | [] => .ok ((e.1 :: r.1).map some)
    | _ :: _ => do
      let rs ← walks k r.2
      .ok ((e.1 :: r.1).map some ++ none :: rs)

/-- `result.push_back(GetNode(…))` and `result.emplace_back(missing, missing)`. -/
def pointsOf (g : Grid P) : List (Option Node) → Res (List P)
  | [] => .ok []
  | none :: vs => do
    let r ← pointsOf g vs
    .ok (inv :: r)
  | some v :: vs => do
    let p ← getNode g v.1 v.2
    let r ← pointsOf g vs
    .ok (p :: r)

/-- `ComputeBoundaryPolygons`, `CurvilinearGrid.cpp:1386-1432`.  The points are fetched after the walk here. -/
def computeBoundaryPolygons (g : Grid P) (ll ur : Node) : Res (List P) := do
  let l ← computeBoundaryEdges g ll ur
  let vs ← walks (l.length + 1) l
  pointsOf g vs

/-- `mkernel_curvilinear_get_boundaries_as_polygons`, `MeshKernel.cpp:948-959`, the order of the corners. -/
def apiBoundaryPolygons (g : Grid P) (an am bn bm : Nat) : Res (List P) :=
  if !g.isValid then .throw
  else computeBoundaryPolygons g (min an bn, min am bm) (max an bn, max am bm)

end Verif.Curvi
