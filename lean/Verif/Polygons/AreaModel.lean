import Verif.Polygons.ContainsSpec
/-!
# Area and centre of mass of a polygon

Models `Polygon::FaceAreaAndCenterOfMass`, both versions, and `ReferencePoint` for the Cartesian
projection.  Vectors are points here.
-/
namespace Verif.Polygons

/-- `TraversalDirection`. -/
inductive Direction where
  | clockwise
  | antiClockwise
  deriving DecidableEq, Repr

/-- Loop body of `ReferencePoint`, `libs/MeshKernel/src/Operations.cpp:827-833`; the largest x is used
in spherical coordinates only. -/
def refStep (r p : Pt) : Pt := ⟨min p.x r.x, if |p.y| < |r.y| then p.y else r.y⟩

/-- `ReferencePoint`, Cartesian, `libs/MeshKernel/src/Operations.cpp:817-845`. -/
def referencePoint (polygon : List Pt) : Pt := polygon.foldl refStep ⟨dblMax, dblMax⟩

/-- `GetDelta` with the Cartesian projection. -/
def delta (a b : Pt) : Pt := ⟨b.x - a.x, b.y - a.y⟩
/-- Half the sum of two vectors. -/
def middle (d e : Pt) : Pt := ⟨(d.x + e.x) / 2, (d.y + e.y) / 2⟩
/-- `delta.y() * middle.x() - delta.x() * middle.y()`, `libs/MeshKernel/src/Polygon.cpp:655-657`; the
general code writes it as a scalar product, lines 707-708. -/
def xds (d m : Pt) : ℚ := d.y * m.x - d.x * m.y
def Pt.add (p q : Pt) : Pt := ⟨p.x + q.x, p.y + q.y⟩
def Pt.scale (c : ℚ) (p : Pt) : Pt := ⟨c * p.x, c * p.y⟩

/-- The code for triangles, `libs/MeshKernel/src/Polygon.cpp:641-664`. -/
def areaTriangle (r p0 p1 p2 : Pt) : ℚ × Pt :=
  let m1 := middle (delta r p0) (delta r p1)
  let m2 := middle (delta r p1) (delta r p2)
  let m3 := middle (delta r p2) (delta r p0)
  let x1 := xds (delta p0 p1) m1
  let x2 := xds (delta p1 p2) m2
  let x3 := xds (delta p2 p0) m3
  (1 / 2 * (x1 + x2 + x3), (((⟨0, 0⟩ : Pt).add (m1.scale x1)).add (m2.scale x2)).add (m3.scale x3))

/-- The code for quadrilaterals, `libs/MeshKernel/src/Polygon.cpp:665-693`. -/
def areaQuad (r p0 p1 p2 p3 : Pt) : ℚ × Pt :=
  let m1 := middle (delta r p0) (delta r p1)
  let m2 := middle (delta r p1) (delta r p2)
  let m3 := middle (delta r p2) (delta r p3)
  let m4 := middle (delta r p3) (delta r p0)
  let x1 := xds (delta p0 p1) m1
  let x2 := xds (delta p1 p2) m2
  let x3 := xds (delta p2 p3) m3
  let x4 := xds (delta p3 p0) m4
  (1 / 2 * (x1 + x2 + x3 + x4),
    ((((⟨0, 0⟩ : Pt).add (m1.scale x1)).add (m2.scale x2)).add (m3.scale x3)).add (m4.scale x4))

/-- One round of the general loop, `libs/MeshKernel/src/Polygon.cpp:701-711`: `a` is the node `n`, `b` the
next node. -/
def areaStep (r : Pt) (acc : ℚ × Pt) (a b : Pt) : ℚ × Pt :=
  let m := middle (delta r a) (delta r b)
  let x := xds (delta a b) m
  (acc.1 + 1 / 2 * x, acc.2.add (m.scale x))

/-- The general loop, `libs/MeshKernel/src/Polygon.cpp:697-713`, over the nodes from the current one on;
the node after the last is the `first` one (`NextCircularForwardIndex`). -/
def areaLoop (r first : Pt) : List Pt → ℚ × Pt → ℚ × Pt
  | [], acc => acc
  | [a], acc => areaStep r acc a first
  | a :: b :: rest, acc => areaLoop r first (b :: rest) (areaStep r acc a b)

/-- The three cases, on the nodes without the closing one, `libs/MeshKernel/src/Polygon.cpp:641-713`. -/
def areaSums (r : Pt) : List Pt → ℚ × Pt
  | [p0, p1, p2] => areaTriangle r p0 p1 p2
  | [p0, p1, p2, p3] => areaQuad r p0 p1 p2 p3
  | [] => (0, ⟨0, 0⟩)
  | first :: rest => areaLoop r first (first :: rest) (0, ⟨0, 0⟩)

/-- `minArea`, `libs/MeshKernel/src/Polygon.cpp:637`, as a rational. -/
def minArea : ℚ := 1 / 100000000

/-- The end of the function, `libs/MeshKernel/src/Polygon.cpp:715-729`, Cartesian. -/
def areaFinish (r : Pt) (s : ℚ × Pt) : ℚ × Pt × Direction :=
  let direction := if s.1 > 0 then Direction.antiClockwise else Direction.clockwise
  let area := if |s.1| < minArea then minArea else s.1
  (|area|, (s.2.scale (1 / (3 * area))).add r, direction)

/-- `Polygon::FaceAreaAndCenterOfMass`, `libs/MeshKernel/src/Polygon.cpp:626-730`, Cartesian.  The last
node closes the polygon and is left out. -/
def faceArea (polygon : List Pt) : Res (ℚ × Pt × Direction) :=
  if polygon.length < 3 then .throw
  else .ok (areaFinish (referencePoint polygon) (areaSums (referencePoint polygon) polygon.dropLast))

/-- The nodes with the given indices. -/
def gatherNodes (nodes : List Pt) : List Nat → Res (List Pt)
  | [] => .ok []
  | i :: is => do
    let p ← vget nodes i
    let ps ← gatherNodes nodes is
    .ok (p :: ps)

/-- `Polygon::FaceAreaAndCenterOfMass` with node indices, `libs/MeshKernel/src/Polygon.cpp:732-841`,
Cartesian.  Simplified: the nodes are read once, before the computation. -/
def faceAreaIndexed (nodes : List Pt) (indices : List Nat) (isClosed : Bool) : Res (ℚ × Pt × Direction) :=
  if indices.length < 3 then .throw
  else do
    let ps ← gatherNodes nodes indices
    let r := referencePoint ps
    .ok (areaFinish r (areaSums r (if isClosed then ps.dropLast else ps)))

end Verif.Polygons
