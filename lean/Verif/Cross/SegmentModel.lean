import Verif.Cross.Model
import Verif.BBox.Model
import Verif.Mesh.Spec
import Verif.Polygons.Basic
import Mathlib.Data.List.Sort
import Mathlib.Tactic.NormNum
/-!
# Model: the test of two segments in the Cartesian projection, in exact arithmetic
-/
namespace Verif.Cross
open Verif.Mesh
open Verif.Polygons (Pt)

/-- `numeric_limits<double>::denorm_min()`. -/
def denormMin : ℚ := 1 / 2 ^ 1074

/-- `det`, `Operations.cpp:1155-1164`. -/
def det (p q a b : Pt) : ℚ := (b.x - a.x) * (q.y - p.y) - (b.y - a.y) * (q.x - p.x)

/-- `eps`, `Operations.cpp:1166-1168`. -/
def eps (p q a b : Pt) : ℚ :=
  max (1 / 100000 * max (max |q.x - p.x| |q.y - p.y|) (max |b.x - a.x| |b.y - a.y|)) denormMin

/-- `ratioFirstSegment`, `Operations.cpp:1176`. -/
def ratioFirst (p q a b : Pt) : ℚ := ((a.y - p.y) * (b.x - a.x) - (a.x - p.x) * (b.y - a.y)) / det p q a b

/-- `ratioSecondSegment`, `Operations.cpp:1175`. -/
def ratioSecond (p q a b : Pt) : ℚ := ((a.y - p.y) * (q.x - p.x) - (a.x - p.x) * (q.y - p.y)) / det p q a b

/-- `AreSegmentsCrossing`, the first of what it returns, `Operations.cpp:1152-1188`, for the segments `p q` and `a b`. -/
def crossing (p q a b : Pt) : Bool :=
  if |det p q a b| < eps p q a b then false
  else decide (0 ≤ ratioFirst p q a b) && decide (ratioFirst p q a b ≤ 1) && decide (0 ≤ ratioSecond p q a b) && decide (ratioSecond p q a b ≤ 1)

/-- A point as the bounding boxes take it. -/
def pt (p : Pt) : BBox.Pt ℚ := ⟨p.x, p.y⟩

/-- `GetBoundingBox`, the loop, `Mesh2D.cpp:2301-2312`; `none` is the box it starts from. -/
def meshBox : List (Option Pt) → Option (BBox.Box ℚ) → Option (BBox.Box ℚ)
  | [], b => b
  | none :: l, b => meshBox l b
  | some p :: l, none => meshBox l (some ⟨pt p, pt p⟩)
  | some p :: l, some b => meshBox l (some ⟨⟨BBox.stdMin b.lo.x p.x, BBox.stdMin b.lo.y p.y⟩, ⟨BBox.stdMax b.hi.x p.x, BBox.stdMax b.hi.y p.y⟩⟩)

/-- Segment `i` of the polyline. -/
def piece (poly : List Pt) (i : Nat) : Option (Pt × Pt) :=
  match poly[i]?, poly[i + 1]? with
  | some p, some q => some (p, q)
  | _, _ => none

/-- The ends of edge `e`. -/
def ends (nodes : List (Option Pt)) (edges : List Edge) (e : Nat) : Option (Pt × Pt) := (edges[e]?).bind (seg nodes)

/-- The box of the mesh overlaps that of the segment; the box the loop starts from overlaps none. -/
def inMesh (nodes : List (Option Pt)) (b : BBox.Box ℚ) : Bool :=
  match meshBox nodes none with
  | some c => BBox.overlaps c b
  | none => false

/-- The tests for a mesh and a polyline, `Mesh2DIntersections.cpp:55-74, 140-157, 191-196` with `Mesh2D.cpp:2295-2333`.  After the
administration an edge has two valid nodes or two missing ones. -/
def data (nodes : List (Option Pt)) (edges : List Edge) (facesEdges : List (List Nat)) (edgesFaces : List (Nat × Nat)) (poly : List Pt) : Data where
  numSeg := poly.length - 1
  hit i e := match piece poly i, ends nodes edges e with
    | some (p, q), some (a, b) => crossing p q a b
    | _, _ => false
  near i e := match piece poly i, ends nodes edges e with
    | some (p, q), some (a, b) => inMesh nodes (BBox.ofTwo (pt p) (pt q)) && BBox.overlaps (BBox.ofTwo (pt a) (pt b)) (BBox.ofTwo (pt p) (pt q))
    | _, _ => false
  facesEdges := facesEdges
  edgesFaces := edgesFaces

/-- The order in which the edges of a face are put: by the place within the segment, `Mesh2DIntersections.cpp:322-325`. -/
def place (nodes : List (Option Pt)) (edges : List Edge) (poly : List Pt) (s : St) (e : Nat) : ℚ :=
  match s.found[e]?.join.bind (piece poly), ends nodes edges e with
  | some (p, q), some (a, b) => ratioFirst p q a b
  | _, _ => -999

/-- `Mesh2DIntersections.cpp:322-325`; `std::ranges::sort` leaves open the order of equal ones, here it is kept. -/
def byPlace (nodes : List (Option Pt)) (edges : List Edge) (poly : List Pt) (s : St) (l : List Nat) : List Nat :=
  l.insertionSort fun a b => place nodes edges poly s a ≤ place nodes edges poly s b

end Verif.Cross
