import Verif.Polygons.ParseModel
/-!
# Which points a polygon contains

Models `Polygon::Contains` (Cartesian and spherical projections; the spherical-accurate test is not
modelled), `IsPointInPolygonNodes`, `PolygonalEnclosure::ContainsRegion` and the queries of
`Polygons`.
-/
namespace Verif.Polygons

/-- `std::numeric_limits<double>::max()`. -/
def dblMax : ℚ := (2 ^ 53 - 1) * 2 ^ 971

/-- `BoundingBox`: lower left and upper right corner. -/
structure Box where
  lo : Pt
  hi : Pt
  deriving DecidableEq, Repr

/-- Loop body of `BoundingBox::Reset`, `libs/MeshKernel/include/MeshKernel/BoundingBox.hpp:200-208`. -/
def Box.grow (b : Box) (p : Pt) : Box :=
  if p.isValid then ⟨⟨min b.lo.x p.x, min b.lo.y p.y⟩, ⟨max b.hi.x p.x, max b.hi.y p.y⟩⟩ else b

/-- `BoundingBox::Reset` for a list with points,
`libs/MeshKernel/include/MeshKernel/BoundingBox.hpp:191-212`. -/
def boundingBox (nodes : List Pt) : Box :=
  nodes.foldl Box.grow ⟨⟨dblMax, dblMax⟩, ⟨-dblMax, -dblMax⟩⟩

/-- `BoundingBox::Contains`, `libs/MeshKernel/include/MeshKernel/BoundingBox.hpp:102-107`. -/
def Box.contains (b : Box) (p : Pt) : Bool :=
  decide (p.x ≥ b.lo.x) && decide (p.x ≤ b.hi.x) && decide (p.y ≥ b.lo.y) && decide (p.y ≤ b.hi.y)

/-- `crossProduct` with the Cartesian projection, `libs/MeshKernel/src/Operations.cpp:170-177`
(`GetDx`, `GetDy`: lines 376-380, 414-418). -/
def crossProduct (a b c d : Pt) : ℚ := (b.x - a.x) * (d.y - c.y) - (b.y - a.y) * (d.x - c.x)

/-- Position of the point along a segment in one coordinate,
`libs/MeshKernel/src/Polygon.cpp:89-93`. -/
def lambda (a b p : ℚ) : ℚ := if |b - a| > 0 then (p - a) / (b - a) else 0

/-- The test for a point on the segment, `libs/MeshKernel/src/Polygon.cpp:84-95`.  `IsEqual` with the
reference 0.0 is equality: the tolerance is relative to the smaller value. -/
def onSegment (a b p : Pt) : Bool :=
  isEqual (crossProduct a b a p) 0 &&
    (decide (lambda a.x b.x p.x ≥ 0) && decide (lambda a.x b.x p.x ≤ 1) &&
     decide (lambda a.y b.y p.y ≥ 0) && decide (lambda a.y b.y p.y ≤ 1))

/-- Change of the winding number, `libs/MeshKernel/src/Polygon.cpp:101-115` and
`libs/MeshKernel/src/Operations.cpp:235-250`. -/
def crossing (a b p : Pt) : Int :=
  if a.y ≤ p.y then
    if b.y > p.y ∧ crossProduct a b a p > 0 then 1 else 0
  else
    if b.y ≤ p.y ∧ crossProduct a b a p < 0 then -1 else 0

/-- The loop of `Polygon::ContainsCartesian`, `libs/MeshKernel/src/Polygon.cpp:77-119`. -/
def windLoop (p : Pt) : List Pt → Int → Bool
  | a :: b :: rest, w => if onSegment a b p then true else windLoop p (b :: rest) (w + crossing a b p)
  | _, w => decide (w ≠ 0)

/-- `Polygon::Contains`, `libs/MeshKernel/src/Polygon.cpp:187-215`, for the Cartesian and the spherical
projection. -/
def ringContains (nodes : List Pt) (p : Pt) : Res Bool :=
  if !p.isValid then .throw
  else if nodes.isEmpty then .ok true
  else if nodes.length < 3 then .ok false
  else if !(boundingBox nodes).contains p then .ok false
  else .ok (windLoop p nodes 0)

/-- The loop of `IsPointInPolygonNodes`, `libs/MeshKernel/src/Operations.cpp:223-253`. -/
def nodesLoop (p : Pt) : List Pt → Int → Bool
  | a :: b :: rest, w =>
    if isEqual (crossProduct a b a p) 0 then true else nodesLoop p (b :: rest) (w + crossing a b p)
  | _, w => decide (w ≠ 0)

/-- `IsPointInPolygonNodes` for the whole list (default start and end node) and the Cartesian or
spherical projection, `libs/MeshKernel/src/Operations.cpp:179-254`. -/
def inPolygonNodes (nodes : List Pt) (p : Pt) : Bool :=
  match nodes.head?, nodes.getLast? with
  | some first, some last =>
    if nodes.length - 1 ≤ 0 then true
    else if nodes.length < 3 then false
    else if !first.same last then false
    else if !(boundingBox nodes).contains p then false
    else nodesLoop p nodes 0
  | _, _ => true

/-- `PolygonalEnclosure::Region`, `libs/MeshKernel/include/MeshKernel/PolygonalEnclosure.hpp`. -/
inductive Region where
  | none
  | exterior
  | interior
  deriving DecidableEq, Repr

variable (inside : List Pt → Pt → Bool)

/-- `PolygonalEnclosure::ContainsRegion`, `libs/MeshKernel/src/PolygonalEnclosure.cpp:103-126`, for any
test `inside` of a ring (any projection). -/
def containsRegion (e : Enclosure) (p : Pt) : Region :=
  if p.isValid && inside e.outer p then
    if e.inner.any (fun r => inside r p) then .interior else .exterior
  else .none

/-- `PolygonalEnclosure::Contains`, `libs/MeshKernel/src/PolygonalEnclosure.cpp:97-101`. -/
def enclosureContains (e : Enclosure) (p : Pt) : Bool := decide (containsRegion inside e p = .exterior)

/-- The loop of `Polygons::IsPointInPolygons`, `libs/MeshKernel/src/Polygons.cpp:314-330`. -/
def inPolygonsLoop (p : Pt) : List Enclosure → Nat → Bool × Nat
  | [], _ => (false, missing)
  | e :: es, i =>
    if containsRegion inside e p = .exterior then (true, i)
    else if containsRegion inside e p = .interior then (false, missing)
    else inPolygonsLoop p es (i + 1)

/-- `Polygons::IsPointInPolygons`, `libs/MeshKernel/src/Polygons.cpp:306-331`. -/
def isPointInPolygons (es : List Enclosure) (p : Pt) : Bool × Nat :=
  if es.isEmpty then (true, missing) else inPolygonsLoop inside p es 0

/-- The loop of `Polygons::IsPointInAnyPolygon`, `libs/MeshKernel/src/Polygons.cpp:341-357`. -/
def inAnyLoop (p : Pt) : List Enclosure → Bool
  | [] => false
  | e :: es =>
    match containsRegion inside e p with
    | .exterior => true
    | .interior => false
    | .none => inAnyLoop p es

/-- `Polygons::IsPointInAnyPolygon`, `libs/MeshKernel/src/Polygons.cpp:333-358`. -/
def isPointInAnyPolygon (es : List Enclosure) (p : Pt) : Bool :=
  if es.isEmpty then true else inAnyLoop inside p es

/-- `Polygons::IsPointInPolygon`, `libs/MeshKernel/src/Polygons.cpp:291-304`. -/
def isPointInPolygon (es : List Enclosure) (p : Pt) (i : Nat) : Res Bool :=
  if es.isEmpty then .ok true
  else if i ≥ es.length then .throw
  else do
    let e ← vget es i
    .ok (enclosureContains inside e p)

/-- `Polygons::PointsInPolygons`, `libs/MeshKernel/src/Polygons.cpp:360-371`. -/
def pointsInPolygons (es : List Enclosure) (ps : List Pt) : List Bool :=
  ps.map fun p => (isPointInPolygons inside es p).1

/-- The ring test with its exceptions left out: the callers check the point first. -/
def ringInside (nodes : List Pt) (p : Pt) : Bool :=
  match ringContains nodes p with
  | .ok b => b
  | _ => false

end Verif.Polygons
