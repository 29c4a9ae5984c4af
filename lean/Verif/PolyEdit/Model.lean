import Verif.Polygons.ContainsModel
/-!
# Model: offsetting, snapping and selecting with polygons through the API

Models `Polygon::ComputeOffset`, `Polygons::OffsetCopy`, `Polygons::SnapToLandBoundary` and the API functions
`mkernel_polygon_get_offset`, `mkernel_polygon_count_offset`, `mkernel_polygon_snap_to_landboundary` and
`mkernel_polygon_get_included_points`, Cartesian.

The offset of a ring is modelled over any field, with `std::hypot` as a parameter; `Polygons` reads its points with
tolerances, so that the rest is over the rationals, as in `Verif.Polygons`.
-/
namespace Verif.PolyEdit
open Verif.Polygons

/-! ## The offset of one ring -/

section
variable {K : Type} [Field K]

/-- `Point` and `Vector`, `libs/MeshKernel/include/MeshKernel/Vector.hpp`. -/
@[ext] structure Vec (K : Type) where
  x : K
  y : K
  deriving DecidableEq

/-- The difference of two points. -/
def Vec.diff (a b : Vec K) : Vec K := ⟨b.x - a.x, b.y - a.y⟩

/-- `dot`, `libs/MeshKernel/include/MeshKernel/Vector.hpp:213-216`. -/
def Vec.dot (a b : Vec K) : K := a.x * b.x + a.y * b.y

/-- `ComputeNormalToline`, `libs/MeshKernel/src/Operations.cpp:365-371`, Cartesian, with `Vector::normalise`,
`libs/MeshKernel/include/MeshKernel/Vector.hpp:188-193`. For a side without length the code gets NaN; here it is zero. -/
def normal (len : Vec K → K) (a b : Vec K) : Vec K :=
  let d := Vec.diff a b
  ⟨-(d.y * (1 / len d)), d.x * (1 / len d)⟩

/-- `libs/MeshKernel/src/Polygon.cpp:892-893`. -/
def corner (prev next : Vec K) : Vec K :=
  let factor := 1 / (1 + Vec.dot prev next)
  ⟨factor * (prev.x + next.x), factor * (prev.y + next.y)⟩

/-- The loop `libs/MeshKernel/src/Polygon.cpp:876-896`; `first` is `firstNormal` once it is set. -/
def corners (len : Vec K → K) : Option (Vec K) → Vec K → List (Vec K) → List (Vec K)
  | _, _, [] => []
  | first, prev, [_] => [corner prev (first.getD prev)]
  | first, prev, a :: b :: l =>
    corner prev (normal len a b) :: corners len (some (first.getD (normal len a b))) (normal len a b) (b :: l)

/-- One of the two offset copies, `libs/MeshKernel/src/Polygon.cpp:912-929`, Cartesian. -/
def moved (s : K) (nodes normals : List (Vec K)) : List (Vec K) :=
  List.zipWith (fun p n => ⟨p.x + s * n.x, p.y + s * n.y⟩) nodes normals

/-- `normalVectors`, `libs/MeshKernel/src/Polygon.cpp:867-896`. The read of the last but one node is undefined for fewer
than two. -/
def normals (len : Vec K → K) (nodes : List (Vec K)) : Res (List (Vec K)) := do
  let p ← vget nodes (nodes.length - 2)
  let q ← vget nodes 0
  .ok (corners len none (normal len p q) nodes)

end

/-- The points as vectors. -/
def toVec (p : Pt) : Vec ℚ := ⟨p.x, p.y⟩

/-- Back again. -/
def toPt (v : Vec ℚ) : Pt := ⟨v.x, v.y⟩

/-- `ComputeOffset`, `libs/MeshKernel/src/Polygon.cpp:865-932`, Cartesian. -/
def computeOffset (len : Vec ℚ → ℚ) (distance : ℚ) (both : Bool) (nodes : List Pt) : Res (List Pt) := do
  let ns ← normals len (nodes.map toVec)
  let out := (moved (-distance) (nodes.map toVec) ns).map toPt
  let back := (moved distance (nodes.map toVec) ns).map toPt
  .ok (if both then out ++ outerSep :: back else out)

/-! ## The offset of polygons -/

/-- The copy loops `libs/MeshKernel/src/Polygons.cpp:205-209` and `216-220`: the points are written from `start` on. -/
def putFrom : List Pt → Nat → List Pt → Res (List Pt)
  | [], _, l => .ok l
  | p :: ps, start, l => do
    let l' ← vset l start p
    putFrom ps (start + 1) l'

/-- `libs/MeshKernel/src/Polygons.cpp:211-221`: for every hole its offset is computed, and the offset of the outer ring is
written once more. -/
def holesLoop (len : Vec ℚ → ℚ) (distance : ℚ) (both : Bool) (outer : List Pt) : List (List Pt) → Nat × List Pt → Res (Nat × List Pt)
  | [], s => .ok s
  | r :: rs, s => do
    let _ ← computeOffset len distance both r
    let l ← putFrom outer s.1 s.2
    holesLoop len distance both outer rs (s.1 + outer.length, l)

/-- `libs/MeshKernel/src/Polygons.cpp:201-224`; the state is `innerCount`, `outerCount` and the new points. -/
def enclosuresLoop (len : Vec ℚ → ℚ) (distance : ℚ) (both : Bool) : List Enclosure → Nat → Nat → List Pt → Res (List Pt)
  | [], _, _, l => .ok l
  | e :: es, inner, outer, l => do
    let o ← computeOffset len distance both e.outer
    let l1 ← putFrom o inner l
    let s ← holesLoop len distance both o e.inner (outer, l1)
    enclosuresLoop len distance both es (inner + o.length) s.1 s.2

/-- `OffsetCopy`, `libs/MeshKernel/src/Polygons.cpp:191-229`. -/
def offsetCopy (len : Vec ℚ → ℚ) (P : PolyList) (distance : ℚ) (both : Bool) : Res PolyList := do
  let l ← enclosuresLoop len distance both P.enclosures 0 P.numNodes
    (List.replicate (P.numNodes + (if both then P.numNodes + 1 else 0)) outerSep)
  polygonsCtor l

/-! ## The API -/

/-- The loop of `ConvertGeometryListToPointVector`, `libs/MeshKernelApi/include/MeshKernelApi/Utils.hpp:67-75`. -/
def withoutRepeats : Pt → List Pt → List Pt
  | _, [] => []
  | last, p :: l => if isEqual p.x last.x && isEqual p.y last.y then withoutRepeats last l else p :: withoutRepeats p l

/-- `ConvertGeometryListToPointVector`, `libs/MeshKernelApi/include/MeshKernelApi/Utils.hpp:57-77`. -/
def pointVector : List Pt → List Pt
  | [] => []
  | p :: l => p :: withoutRepeats p l

/-- `ConvertPointVectorToGeometryList`, `libs/MeshKernelApi/include/MeshKernelApi/Utils.hpp:184-196`, into arrays of length
`count`. -/
def written (points : List Pt) (count : Nat) : Res (List Pt) :=
  if points.length < count then .throw else .ok (points.take count)

/-- `mkernel_polygon_get_offset`, `libs/MeshKernelApi/src/MeshKernel.cpp:2550-2574`, for a kernel that exists; the result is
what is written. -/
def getOffset (len : Vec ℚ → ℚ) (input : List Pt) (inward : Int) (distance : ℚ) (count : Nat) : Res (List Pt) := do
  let P ← polygonsCtor (pointVector input)
  let N ← offsetCopy len P distance (decide (inward = 1))
  written N.gather count

/-- `mkernel_polygon_count_offset`, `libs/MeshKernelApi/src/MeshKernel.cpp:2576-2600`. -/
def countOffset (len : Vec ℚ → ℚ) (input : List Pt) (inward : Int) (distance : ℚ) : Res Nat := do
  let P ← polygonsCtor (pointVector input)
  let N ← offsetCopy len P distance (decide (inward = 1))
  .ok N.numNodes

/-- The loop of `Polygon::SnapToLandBoundary`, `libs/MeshKernel/src/Polygon.cpp:231-247`, from round `i` on, `k` rounds.
Nodes of a polygon are valid. -/
def snapLoop (nearest : Pt → Pt) (start fin : Nat) : Nat → Nat → List Pt → Res (List Pt)
  | _, 0, l => .ok l
  | i, k + 1, l => do
    let cur := (start + i) % l.length
    let p ← vget l cur
    let l' ← if p.isValid then vset l cur (nearest p) else .ok l
    if cur = fin then .ok l' else snapLoop nearest start fin (i + 1) k l'

/-- `Polygon::SnapToLandBoundary`, `libs/MeshKernel/src/Polygon.cpp:218-258`, Cartesian; `nearest` is
`LandBoundary::FindNearestPoint` (`Verif.Snap`). -/
def snapRing (nearest : Pt → Pt) (start fin : Nat) (nodes : List Pt) : Res (List Pt) :=
  if start ≥ nodes.length then .throw
  else if fin ≥ nodes.length then .throw
  else snapLoop nearest start fin 0 nodes.length nodes

/-- `Polygons::SnapToLandBoundary`, `libs/MeshKernel/src/Polygons.cpp:231-246`, with
`PolygonalEnclosure::SnapToLandBoundary`, `libs/MeshKernel/src/PolygonalEnclosure.cpp:143-153`, whose check of the end index
is repeated in `snapRing`. The result is the index of the polygon and its nodes afterwards. -/
def snapPolygons (nearest : Pt → Pt) (P : PolyList) (start fin : Nat) : Res (Nat × List Pt) :=
  match P.enclosures with
  | [] => .throw
  | e :: _ => do
    let last := if start = 0 ∧ fin = 0 then e.outer.length - 1 else fin
    let r ← P.index start last
    let f ← vget P.enclosures r.1
    let ring ← snapRing nearest r.2.1 r.2.2 f.outer
    .ok (r.1, ring)

/-- The loop `libs/MeshKernelApi/src/MeshKernel.cpp:3272-3276`, from round `i` on, `k` rounds. -/
def copyBack (snapped : List Pt) : Nat → Nat → List Pt → Res (List Pt)
  | _, 0, l => .ok l
  | i, k + 1, l => do
    let p ← vget snapped i
    let l' ← vset l i p
    copyBack snapped (i + 1) k l'

/-- The nodes `PolygonIndex` points to afterwards, `libs/MeshKernelApi/src/MeshKernel.cpp:3265-3270`: those of the polygon
that was snapped, or of another one. -/
def lookUp (P : PolyList) (snapped : Nat × List Pt) (start fin : Nat) : Res (List Pt) := do
  let r ← P.index start fin
  if r.1 = snapped.1 then .ok snapped.2 else do
    let f ← vget P.enclosures r.1
    .ok f.outer

/-- `mkernel_polygon_snap_to_landboundary`, `libs/MeshKernelApi/src/MeshKernel.cpp:3209-3283`, from the coordinates of the
polygon to those left behind; the kernel exists and there is a land boundary. -/
def snapPolygon (nearest : Pt → Pt) (coordinates : List Pt) (start fin : Int) : Res (List Pt) :=
  if coordinates.length = 0 then .throw
  else if start < 0 ∨ fin < 0 then .throw
  else if fin ≥ coordinates.length then .throw
  else do
    let P ← polygonsCtor (pointVector coordinates)
    let snapped ← snapPolygons nearest P start.toNat fin.toNat
    let nodes ← lookUp P snapped start.toNat fin.toNat
    copyBack nodes 0 coordinates.length coordinates

/-- The loop `libs/MeshKernelApi/src/MeshKernel.cpp:2886-2889`. -/
def includedLoop (inside : List Pt → Pt → Bool) (es : List Enclosure) : List Pt → Nat → List ℚ → Res (List ℚ)
  | [], _, l => .ok l
  | p :: ps, i, l => do
    let b ← isPointInPolygon inside es p 0
    let l' ← vset l i (if b then 1 else 0)
    includedLoop inside es ps (i + 1) l'

/-- `mkernel_polygon_get_included_points`, `libs/MeshKernelApi/src/MeshKernel.cpp:2871-2896`, from the values handed in to
those left behind. -/
def includedPoints (inside : List Pt → Pt → Bool) (selecting points : List Pt) (values : List ℚ) : Res (List ℚ) := do
  let P ← polygonsCtor (pointVector selecting)
  includedLoop inside P.enclosures (pointVector points) 0 values

end Verif.PolyEdit
