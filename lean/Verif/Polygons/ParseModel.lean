import Verif.Polygons.Basic
/-!
# Building a polygon list from a flat list of points, and gathering the points again

Models `FindIndices` of `libs/MeshKernel/src/Operations.cpp`, the constructors of
`libs/MeshKernel/src/Polygons.cpp`, `PolygonalEnclosure.cpp` and `Polygon.cpp`,
`GatherAllEnclosureNodes` and `PolygonIndex`.  Indices are natural numbers (lists shorter than
2^32 points).
-/
namespace Verif.Polygons

/-- The loop of `FindIndices` and the closing of the last range,
`libs/MeshKernel/src/Operations.cpp:64-84`: `n` is the counter, the option holds `startRange`
while `inRange`.  The list holds the elements `vec[n], …, vec[end - 1]`; the bounds have been
checked before the loop. -/
def findLoop (separator : ℚ) (size : Nat) : List Pt → Nat → Option Nat → List (Nat × Nat)
  | [], _, none => []
  | [], _, some s => [(s, size - 1)]
  | p :: ps, n, none =>
    if isSep separator p then findLoop separator size ps (n + 1) none
    else findLoop separator size ps (n + 1) (some n)
  | p :: ps, n, some s =>
    if isSep separator p then (s, n - 1) :: findLoop separator size ps (n + 1) none
    else findLoop separator size ps (n + 1) (some s)

/-- `FindIndices`, `libs/MeshKernel/src/Operations.cpp:46-87`. -/
def findIndices (vec : List Pt) (start fin : Nat) (separator : ℚ) : List (Nat × Nat) :=
  if vec.isEmpty then []
  else if start > vec.length ∨ fin > vec.length then []
  else findLoop separator vec.length ((vec.take fin).drop start) start none

/-- `Polygon::Initialise`, `libs/MeshKernel/src/Polygon.cpp:22-41`, on the nodes of the ring; the
bounding box is modelled in `ContainsModel.lean`.  `InvalidPointCount`,
`libs/MeshKernel/src/Operations.cpp:89-114`, is compared with zero only. -/
def initialise (nodes : List Pt) : Res (List Pt) :=
  if 0 < nodes.length ∧ nodes.length < 4 then .throw
  else match nodes.head?, nodes.getLast? with
    | some p, some q => if !p.same q then .throw
        else if nodes.countP (fun p => !p.isValid) > 0 then .throw else .ok nodes
    | _, _ => .ok nodes

/-- `PolygonalEnclosure::ConstructPolygon`, `libs/MeshKernel/src/PolygonalEnclosure.cpp:20-46`. -/
def constructPolygon (points : List Pt) (start fin : Nat) : Res (List Pt) :=
  if start > fin then .throw
  else if fin ≥ points.length then .throw
  else initialise ((points.take (fin + 1)).drop start)

/-- `PolygonalEnclosure`: nodes of the outer polygon and of the inner polygons. -/
structure Enclosure where
  outer : List Pt
  inner : List (List Pt)
  deriving DecidableEq, Repr

/-- Loop of `ConstructInnerPolygons`, `libs/MeshKernel/src/PolygonalEnclosure.cpp:78-82`. -/
def constructRings (points : List Pt) : List (Nat × Nat) → Res (List (List Pt))
  | [] => .ok []
  | r :: rs => do
    let ring ← constructPolygon points r.1 r.2
    let rings ← constructRings points rs
    .ok (ring :: rings)

/-- End of the outer polygon in `ConstructOuterPolygon`,
`libs/MeshKernel/src/PolygonalEnclosure.cpp:55-61`. -/
def outerEnd (points : List Pt) : List (Nat × Nat) → Nat
  | r :: _ :: _ => r.2
  | _ => points.length - 1

/-- `PolygonalEnclosure` constructor, `libs/MeshKernel/src/PolygonalEnclosure.cpp:6-18`, with
`ConstructOuterPolygon` 48-64 and `ConstructInnerPolygons` 66-83.  `Polygons` calls it with at
least one point. -/
def enclosureCtor (points : List Pt) : Res Enclosure := do
  let ranges := findIndices points 0 (points.length - 1) innerOuterSeparator
  let outer ← constructPolygon points 0 (outerEnd points ranges)
  let inner ← constructRings points ranges.tail
  .ok ⟨outer, inner⟩

/-- `Polygons`: enclosures, start and end index of each outer polygon in the list it was built from,
and number of nodes. -/
structure PolyList where
  enclosures : List Enclosure
  outerIndices : List (Nat × Nat)
  numNodes : Nat
  deriving DecidableEq, Repr

/-- New end of the outer polygon, `libs/MeshKernel/src/Polygons.cpp:52,65-82`. -/
def shiftOuter (polygon : List Pt) (r : Nat × Nat) : Nat × Nat :=
  match findIndices polygon r.1 r.2 innerOuterSeparator with
  | _ :: second :: _ => (r.1, second.1 - 2)
  | _ => r

/-- The loop over the outer ranges, `libs/MeshKernel/src/Polygons.cpp:47-83`; the copy of the points,
57-60, is undefined when the range leaves the list. -/
def ctorLoop (polygon : List Pt) : List (Nat × Nat) → Res (List Enclosure × List (Nat × Nat))
  | [] => .ok ([], [])
  | r :: rs => do
    if r.2 ≥ polygon.length then .ub
    let e ← enclosureCtor ((polygon.take (r.2 + 1)).drop r.1)
    let rest ← ctorLoop polygon rs
    .ok (e :: rest.1, shiftOuter polygon r :: rest.2)

/-- `PolygonalEnclosure::NumberOfPoints(true)`, `libs/MeshKernel/src/PolygonalEnclosure.cpp:128-141`. -/
def Enclosure.numberOfPoints (e : Enclosure) : Nat := e.outer.length + (e.inner.map List.length).sum

/-- The counting loop, `libs/MeshKernel/src/Polygons.cpp:88-102`. -/
def countNodes : List Enclosure → Nat
  | [] => 0
  | [e] => e.numberOfPoints + e.inner.length
  | e :: es => e.numberOfPoints + e.inner.length + 1 + countNodes es

/-- `Polygons` constructor, `libs/MeshKernel/src/Polygons.cpp:41-103`. -/
def polygonsCtor (polygon : List Pt) : Res PolyList := do
  let r ← ctorLoop polygon (findIndices polygon 0 polygon.length missingDouble)
  .ok ⟨r.1, r.2, countNodes r.1⟩

/-- Points of one enclosure in `GatherAllEnclosureNodes`, `libs/MeshKernel/src/Polygons.cpp:389-397`. -/
def Enclosure.gather (e : Enclosure) : List Pt :=
  e.outer ++ (e.inner.map (fun r => innerSep :: r)).flatten

/-- Loop of `GatherAllEnclosureNodes`, `libs/MeshKernel/src/Polygons.cpp:387-403`. -/
def gatherLoop : List Enclosure → List Pt
  | [] => []
  | [e] => e.gather
  | e :: es => e.gather ++ outerSep :: gatherLoop es

/-- `GatherAllEnclosureNodes`, `libs/MeshKernel/src/Polygons.cpp:379-406`. -/
def PolyList.gather (P : PolyList) : List Pt := gatherLoop P.enclosures

/-- Subtraction of 32 bit unsigned numbers. -/
def wrapSub (a b : Nat) : Nat := if b ≤ a then a - b else a + 4294967296 - b

/-- Loop of `PolygonIndex`, `libs/MeshKernel/src/Polygons.cpp:269-281`. -/
def indexLoop (startIndex endIndex : Nat) : List (Nat × Nat) → Nat → Option (Nat × Nat × Nat)
  | [], _ => none
  | r :: rs, i =>
    if startIndex ≥ r.1 ∧ endIndex ≤ r.2 then some (i, startIndex - r.1, wrapSub endIndex r.1)
    else indexLoop startIndex endIndex rs (i + 1)

/-- `PolygonIndex`, `libs/MeshKernel/src/Polygons.cpp:248-289`. -/
def PolyList.index (P : PolyList) (startIndex endIndex : Nat) : Res (Nat × Nat × Nat) :=
  match P.enclosures with
  | [] => .throw
  | e :: _ =>
    let last := if startIndex = 0 ∧ endIndex = 0 then e.outer.length - 1 else endIndex
    match indexLoop startIndex last P.outerIndices 0 with
    | some r => .ok r
    | none => .throw

end Verif.Polygons
