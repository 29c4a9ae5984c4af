import Verif.CurviLine.Model
/-!
# Model: snapping a grid line to a land boundary or a spline

Models `CurvilinearGridSnapping.cpp`, `CurvilinearGridMeshExpansionCalculator.cpp`,
`CurvilinearGridSnapGridToLandBoundary.cpp`, `CurvilinearGridSnapGridToSpline.cpp` and the search for the nearest point of a
land boundary (`LandBoundary.cpp:7-52`, `Operations.cpp:879-941`), Cartesian.

Coordinates are elements of an ordered field; square root, distance and `(1 + cos(π a / b)) / 2` are parameters.  The
search that turns a control point into a node is a parameter too; so is the nearest point of a spline, and the radius
`m_expansionRegionMinimum` that is computed from the boxes around the grid and the boundary
(`CurvilinearGridMeshExpansionCalculator.cpp:49-58`).
-/
namespace Verif.Snap
open Verif.Curvi Verif.CurviLine
variable {K : Type} [Field K] [LinearOrder K]

/-- What the model does not compute. -/
structure Means (K : Type) where
  /-- `std::hypot` of the difference of two points, and `(1 + cos(π d / m)) / 2` of whole numbers -/
  geo : Geo K
  /-- `std::sqrt` -/
  root : K → K
  /-- `0.5 * (1.0 + cos(π * a / b))` -/
  hump : K → K → K
  /-- `FindNearestPoint` -/
  nearest : Pt K → Pt K
  /-- `m_expansionRegionMinimum` -/
  region : K

/-- What `Initialise` computes, `CurvilinearGridSnapping.hpp:110-123`; `user` tells that there are more than two control
points. -/
structure Zone where
  first : Nat × Nat
  last : Nat × Nat
  lo : Nat × Nat
  up : Nat × Nat
  ind : Nat × Nat
  user : Bool
  deriving DecidableEq

/-- `m_expansionRegionIndicator`, `CurvilinearGridSnapping.cpp:61-62`; the differences do not wrap. -/
def indicator (first last : Nat × Nat) : Nat × Nat := (min 1 (last.2 - first.2), min 1 (last.1 - first.1))

/-- `Initialise`, `CurvilinearGridSnapping.cpp:29-63`, for the nodes the search found. The third of three nodes is found
with `GetCurvilinearGridNodeIndices` instead of the table; both give the same node. -/
def initialise (g : Grid (Pt K)) : List (Nat × Nat) → Res Zone
  | [a, b] => do
    let r ← blockFromCorners g a b
    .ok ⟨r.1, r.2, r.1, r.2, indicator r.1 r.2, false⟩
  | [a, b, c] => do
    let r ← blockFromCorners g a b
    .ok ⟨r.1, r.2, (min (min r.1.1 r.2.1) c.1, min (min r.1.2 r.2.2) c.2), (max (max r.1.1 r.2.1) c.1, max (max r.1.2 r.2.2) c.2),
      indicator r.1 r.2, true⟩
  | [a, b, c, d] => do
    let r ← blockFromCorners g a b
    let e ← blockFromCorners g c d
    .ok ⟨r.1, r.2, (min r.1.1 e.1.1, min r.1.2 e.1.2), (max r.2.1 e.2.1, max r.2.2 e.2.2), indicator r.1 r.2, true⟩
  | _ => .throw

/-- The search for each control point. -/
def seeAll (see : Pt K → Res (Nat × Nat)) : List (Pt K) → Res (List (Nat × Nat))
  | [] => .ok []
  | p :: l => do
    let v ← see p
    let vs ← seeAll see l
    .ok (v :: vs)

/-- The constructor, `CurvilinearGridSnapping.cpp:9-27`. -/
def construct (see : Pt K → Res (Nat × Nat)) (g : Grid (Pt K)) (points : List (Pt K)) : Res Zone :=
  if points.length ≤ 1 ∨ points.length > 4 then .throw
  else if ¬ (points.all valid = true) then .throw
  else do
    let vs ← seeAll see points
    initialise g vs

/-- `m1` and `n1` for two control points, `CurvilinearGridSnapping.cpp:71` and `73`. The unsigned difference is turned
into a signed number, which gives the difference of the numbers. -/
def presetLow (x ind : Nat) : Nat := (max 1 ((x : Int) + 1 - 80 * ind) - 1).toNat

/-- `m2` and `n2` for two control points, `CurvilinearGridSnapping.cpp:72` and `74`. -/
def presetUp (num x ind : Nat) : Nat := (min (num : Int) ((x : Int) + 1 + 80 * ind) - 1).toNat

/-- `n1` and `m1` for more control points, `CurvilinearGridSnapping.cpp:78-79`. -/
def userLow (low x ind : Nat) : Nat := (max (low : Int) ((x : Int) + 1 - 10000 * ind - 1)).toNat

/-- `n2` and `m2` for more control points, `CurvilinearGridSnapping.cpp:81-82`. -/
def userUp (up x ind : Nat) : Nat := (min (up : Int) ((x : Int) + 1 + 10000 * ind - 1)).toNat

/-- `ComputeLoopBounds`, `CurvilinearGridSnapping.cpp:65-88`. -/
def bounds (g : Grid (Pt K)) (z : Zone) (v : Nat × Nat) : (Nat × Nat) × (Nat × Nat) :=
  if z.user then
    ((userLow z.lo.1 v.1 z.ind.1, userLow z.lo.2 v.2 z.ind.2), (userUp z.up.1 v.1 z.ind.1, userUp z.up.2 v.2 z.ind.2))
  else
    ((presetLow v.1 z.ind.1, presetLow v.2 z.ind.2), (presetUp g.numN v.1 z.ind.1, presetUp g.numM v.2 z.ind.2))

/-- `UserDefinedRegionExpasionCalculator::compute`, `CurvilinearGridMeshExpansionCalculator.cpp:12-33`, with
`ComputeDirectionalSmoothingFactors`, `CurvilinearGrid.cpp:938-961`. -/
def userFactor (o : Means K) (z : Zone) (v w : Nat × Nat) : K :=
  let h := factor o.geo w.2 v.2 z.lo.2 z.up.2
  let u := factor o.geo w.1 v.1 z.lo.1 z.up.1
  if z.ind.2 = 1 ∧ z.ind.1 = 1 then o.root (u * h)
  else if z.ind.1 = 1 then u
  else if z.ind.2 = 1 then h
  else 0

/-- `DefaultRegionExpasionCalculator::compute`, `CurvilinearGridMeshExpansionCalculator.cpp:60-75`; the snapped grid is
the one being changed. -/
def presetFactor (o : Means K) (orig g : Grid (Pt K)) (v w : Nat × Nat) : Res K := do
  let q ← getNode g v.1 v.2
  let p ← getNode orig v.1 v.2
  let x ← getNode orig w.1 w.2
  let rsx := max o.region (o.geo.dist q p)
  let rn := o.geo.dist x p
  .ok (if rn < rsx then o.hump rn rsx else 0)

/-- `expansionFactor.compute`, `CurvilinearGridSnapping.cpp:90-106` and `127`. -/
def factorOf (o : Means K) (orig g : Grid (Pt K)) (z : Zone) (v w : Nat × Nat) : Res K :=
  if z.user then .ok (userFactor o z v w) else presetFactor o orig g v w

/-- The assignment `CurvilinearGridSnapping.cpp:129-132`. -/
def place (f : K) (p delta : Pt K) (n m : Nat) (g : Grid (Pt K)) : Res (Grid (Pt K)) :=
  if f > 0 then setNode g n m (add p (scale delta f)) else .ok g

/-- The body of the inner loop of `ApplyExpansionToGrid`, `CurvilinearGridSnapping.cpp:123-133`. -/
def carryNode (o : Means K) (orig : Grid (Pt K)) (z : Zone) (v : Nat × Nat) (delta : Pt K) (m n : Nat) (g : Grid (Pt K)) :
    Res (Grid (Pt K)) := do
  let p ← getNode orig n m
  if valid p then do
    let f ← factorOf o orig g z v (n, m)
    place f p delta n m g
  else .ok g

/-- `ApplyExpansionToGrid`, `CurvilinearGridSnapping.cpp:108-136`. -/
def carryAll (o : Means K) (orig : Grid (Pt K)) (z : Zone) (v : Nat × Nat) (g : Grid (Pt K)) : Res (Grid (Pt K)) := do
  let b := bounds g z v
  let q ← getNode g v.1 v.2
  let p ← getNode orig v.1 v.2
  forRange b.1.2 (b.2.2 + 1) (fun m => forRange b.1.1 (b.2.1 + 1) (carryNode o orig z v (sub q p) m)) g

/-- `IsEqual` of two numbers, `NumericFunctions.hpp:44-56`, with the tolerance 1e-5 of `CurvilinearGridSnapping.hpp:62`. -/
def closeNumbers (a b : K) : Bool := decide (a = b) || decide (|a - b| < 1 / 100000 * min |a| |b|)

/-- `IsEqual` of two points, `Point.hpp:421-424`. -/
def closePoints (p q : Pt K) : Bool := closeNumbers p.x q.x && closeNumbers p.y q.y

/-- The body of the inner loop of `Compute`, `CurvilinearGridSnapping.cpp:152-168`. -/
def snapNode (o : Means K) (orig : Grid (Pt K)) (z : Zone) (m n : Nat) (g : Grid (Pt K)) : Res (Grid (Pt K)) := do
  let p ← getNode orig n m
  if valid p then do
    let g1 ← setNode g n m (o.nearest p)
    let q ← getNode g1 n m
    if closePoints p q then .ok g1 else carryAll o orig z (n, m) g1
  else .ok g

/-- `Compute`, `CurvilinearGridSnapping.cpp:138-173`. -/
def compute (o : Means K) (orig g : Grid (Pt K)) (z : Zone) : Res (Grid (Pt K) × Act (Pt K)) := do
  let b ← saveBlock g 0 0 g.numN g.numM
  let g' ← forRange z.first.2 (z.last.2 + 1) (fun m => forRange z.first.1 (z.last.1 + 1) (snapNode o orig z m)) g
  .ok (g', .block b)

/-- The constructor, which copies the grid (`CurvilinearGridSnapping.cpp:9-12`, `CurvilinearGrid.cpp:42-51`), and `Compute`. -/
def snap (o : Means K) (see : Pt K → Res (Nat × Nat)) (g : Grid (Pt K)) (points : List (Pt K)) :
    Res (Grid (Pt K) × Act (Pt K)) := do
  let z ← construct see g points
  compute o (copyGrid g) g z

/-- The control points, `MeshKernel.cpp:5033-5041` and `5086-5094`. -/
def controls (a b c : Pt K) : List (Pt K) := if c.x = -999 then [a, b] else [a, b, c]

/-- `mkernel_curvilinear_snap_to_landboundary`, `MeshKernel.cpp:5004-5055`, and `mkernel_curvilinear_snap_to_spline`,
`MeshKernel.cpp:5057-5111`; `count` is the number of coordinates of the boundary or spline. -/
def apiSnap (o : Means K) (see : Pt K → Res (Nat × Nat)) (g : Grid (Pt K)) (count : Nat) (a b c : Pt K) :
    Res (Grid (Pt K) × Act (Pt K)) :=
  if count = 0 then .throw else snap o see g (controls a b c)

/-! ## The nearest point of a land boundary -/

/-- `ComputeSquaredDistance`, `Operations.cpp:879-911`, Cartesian. -/
def squared (p q : Pt K) : K :=
  if !valid p || !valid q then 0 else (q.x - p.x) * (q.x - p.x) + (q.y - p.y) * (q.y - p.y)

/-- `correctedRatio`, `Operations.cpp:933-936`. -/
def ratio (p a b : Pt K) : K :=
  max (min 1 (((p.x - a.x) * (b.x - a.x) + (p.y - a.y) * (b.y - a.y)) / squared b a)) 0

/-- `normalPoint`, `Operations.cpp:938`. -/
def foot (p a b : Pt K) : Pt K := ⟨a.x + ratio p a b * (b.x - a.x), a.y + ratio p a b * (b.y - a.y)⟩

/-- One round of the loop, `LandBoundary.cpp:27-38`, with `DistanceFromLine`, `Operations.cpp:923-941`; the smallest
distance so far by its square. -/
def nearer (p a b : Pt K) (best : K × Pt K) : K × Pt K :=
  if squared b a ≠ 0 ∧ squared p (foot p a b) < best.1 then (squared p (foot p a b), foot p a b) else best

/-- The loop `LandBoundary.cpp:25-39`. -/
def walk (p : Pt K) : List (Pt K) → K × Pt K → K × Pt K
  | a :: b :: l, best => walk p (b :: l) (nearer p a b best)
  | _, best => best

/-- `FindNearestPoint`, `LandBoundary.cpp:7-52`, for a land boundary with at least one point; `far` is the square of
`9.0e33`. -/
def nearestOn (far : K) (land : List (Pt K)) (p : Pt K) : Pt K :=
  if !valid p then p else (walk p land (far, p)).2

end Verif.Snap
