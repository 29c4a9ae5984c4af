import Verif.Faces.OrderModel
import Verif.Loop
/-!
# Boundary polygons of a 2D mesh

`Mesh2D::ComputeBoundaryPolygons` and `Mesh2D::WalkBoundaryFromNode`, `libs/MeshKernel/src/Mesh2D.cpp:1508-1613`.

Points are the entries of the list of nodes: `none` is an invalid point, which also separates the polylines.
-/
namespace Verif.Outline
open Verif.Mesh Verif.Faces
variable {P : Type}

/-- `Polygon::Contains`, `libs/MeshKernel/src/Polygon.cpp:187-215`: an invalid point is rejected, the test itself is a parameter.  The
polygon without nodes contains every point. -/
def contains (inside : P → Bool) : Option P → Res Bool
  | none => .throw
  | some p => .ok (inside p)

/-- The rounds of the loop of `WalkBoundaryFromNode` that stay at a node, `Mesh2D.cpp:1599-1604`: the first of the listed edges
that has not been visited and has one face (`Mesh::IsEdgeOnBoundary`, `libs/MeshKernel/include/MeshKernel/Mesh.hpp:184`). -/
def scan (numFaces : List Nat) (visited : List Bool) : List Nat → Res (Option Nat)
  | [] => .ok none
  | e :: es => do
    let v ← vget visited e
    if v then scan numFaces visited es
    else do
      let c ← vget numFaces e
      if c ≠ 1 then scan numFaces visited es else .ok (some e)

/-- `isVisited`, `currentNode` and `meshBoundaryPolygon` of `WalkBoundaryFromNode`, `Mesh2D.cpp:1580-1583`. -/
structure Walk (P : Type) where
  visited : List Bool
  node : Nat
  points : List (Option P)
  deriving DecidableEq

/-- The step to the next node, `Mesh2D.cpp:1606-1611`. -/
def step (m : Mesh P) (e : Nat) (w : Walk P) : Res (Walk P) := do
  let p ← vget m.edges e
  let x ← vget m.nodes (otherNode p w.node)
  let v ← vset w.visited e true
  .ok { visited := v, node := otherNode p w.node, points := w.points ++ [x] }

/-- `WalkBoundaryFromNode`, `Mesh2D.cpp:1580-1613`, at most `k` nodes; `none` when it has not ended by then.  A node without edges ends
the walk in the code before the test of the polygon: the result is the same. -/
def walkFrom (inside : P → Bool) (m : Mesh P) (numFaces : List Nat) : Nat → Walk P → Res (Option (Walk P))
  | 0, _ => .ok none
  | k + 1, w => do
    let l ← listedEdges m w.node
    match l with
    | [] => .ok (some w)
    | e :: es => do
      let x ← vget m.nodes w.node
      let c ← contains inside x
      if !c then .ok (some w)
      else do
        let found ← scan numFaces w.visited (e :: es)
        match found with
        | none => .ok (some w)
        | some e' => do
          let w' ← step m e' w
          walkFrom inside m numFaces k w'

/-- One round of the loop that is to reverse the first tail, `Mesh2D.cpp:1570-1573`. -/
def swapBack {α : Type} (first tail n : Nat) (points : List α) : Res (List α) := do
  let backup ← vget points n
  let x ← vget points (tail - n + first)
  let points' ← vset points n x
  vset points' (tail - n + first) backup

/-- `Mesh2D.cpp:1565-1575`: `start` is `startPolygonEdges`, `tail` is `numNodesFirstTail`; the rounding up of half of
`tail - start + 1` is `(tail - start + 2) / 2`. -/
def reverseTail {α : Type} (start tail first : Nat) (points : List α) : Res (List α) :=
  if points.length > tail then forRange (start + (tail - start + 2) / 2) tail (swapBack first tail) points else .ok points

/-- `Mesh2D.cpp:1539-1542`. -/
def separated {α : Type} (points : List (Option α)) : List (Option α) := if points.isEmpty then points else points ++ [none]

/-- The walk in the other direction when the polyline is not closed, `Mesh2D.cpp:1556-1562`. -/
def secondTail (inside : P → Bool) (m : Mesh P) (numFaces : List Nat) (k first : Nat) (w : Walk P) : Res (Option (Walk P)) :=
  if w.node ≠ first then walkFrom inside m numFaces k { w with node := first } else .ok (some w)

/-- The new polyline from a boundary edge, `Mesh2D.cpp:1538-1575`, given the edge and its end points. -/
def polyline (inside : P → Bool) (m : Mesh P) (numFaces : List Nat) (k e : Nat) (p : Edge) (x y : Option P) (s : List Bool × List (Option P)) :
    Res (Option (List Bool × List (Option P))) := do
  let v ← vset s.1 e true
  let r ← walkFrom inside m numFaces k { visited := v, node := p.2, points := separated s.2 ++ [x, y] }
  match r with
  | none => .ok none
  | some w => do
    let r' ← secondTail inside m numFaces k p.1 w
    match r' with
    | none => .ok none
    | some w' => do
      let points ← reverseTail (separated s.2).length w.points.length p.1 w'.points
      .ok (some (w'.visited, points))

/-- The tests of the polygon, `Mesh2D.cpp:1525-1536`, and the polyline. -/
def fromEdge (inside : P → Bool) (m : Mesh P) (numFaces : List Nat) (k e : Nat) (s : List Bool × List (Option P)) :
    Res (Option (List Bool × List (Option P))) := do
  let p ← vget m.edges e
  let x ← vget m.nodes p.1
  let y ← vget m.nodes p.2
  let c ← contains inside x
  let d ← contains inside y
  if !c && !d then .ok (some s) else polyline inside m numFaces k e p x y s

/-- One round of the loop over the edges, `Mesh2D.cpp:1520-1575`. -/
def round (inside : P → Bool) (m : Mesh P) (numFaces : List Nat) (k e : Nat) (s : List Bool × List (Option P)) :
    Res (Option (List Bool × List (Option P))) := do
  let v ← vget s.1 e
  if v then .ok (some s)
  else do
    let c ← vget numFaces e
    if c ≠ 1 then .ok (some s) else fromEdge inside m numFaces k e s

/-- The loop over the edges, `Mesh2D.cpp:1518-1576`. -/
def rounds (inside : P → Bool) (m : Mesh P) (numFaces : List Nat) (k : Nat) : List Nat → List Bool × List (Option P) →
    Res (Option (List Bool × List (Option P)))
  | [], s => .ok (some s)
  | e :: es, s => do
    let r ← round inside m numFaces k e s
    match r with
    | none => .ok none
    | some s' => rounds inside m numFaces k es s'

/-- The polylines of an administrated mesh, `Mesh2D.cpp:1514-1577`. -/
def polylines (inside : P → Bool) (m : Mesh P) (numFaces : List Nat) (k : Nat) : Res (Option (List (Option P))) := do
  let r ← rounds inside m numFaces k (List.range m.edges.length) (List.replicate m.edges.length false, [])
  match r with
  | none => .ok none
  | some s => .ok (some s.2)

/-- `ComputeBoundaryPolygons`, `Mesh2D.cpp:1508-1578`; the loops of the walk are cut off after `k` rounds, `none` is a walk that has not
ended by then. -/
def boundaryPolygons (inside : P → Bool) (order : Nat → List Nat → List Nat) (cw : List (Option P) → List Nat → Bool) (k : Nat) (m : Mesh P) :
    Res (Option (List (Option P)) × Mesh P) := do
  let (m1, s) ← doAdministration order cw m
  let r ← polylines inside m1 s.numFaces k
  .ok (r, m1)

/-- What `mkernel_mesh2d_get_mesh_boundaries_as_polygons` computes, `libs/MeshKernelApi/src/MeshKernel.cpp:1815-1835`, and what
`mkernel_mesh2d_count_mesh_boundaries_as_polygons` counts, `MeshKernel.cpp:1837-1856`: the polygon is always empty. -/
def meshBoundaries (order : Nat → List Nat → List Nat) (cw : List (Option P) → List Nat → Bool) (k : Nat) (m : Mesh P) :
    Res (Option (List (Option P)) × Mesh P) := boundaryPolygons (fun _ => true) order cw k m

end Verif.Outline
