import Verif.Polygons.ParseModel
import Verif.Polygons.ContainsSpec
import Mathlib.Data.Rat.Floor
/-!
# Refinement of a polygon

Models `Polygon::Refine`, `RefineSegment` and `Polygons::RefineFirstPolygon`.  The distance of two
points (`ComputeDistance`, a square root) is a parameter.
-/
namespace Verif.Polygons

/-- `std::lround`: nearest integer, halves away from zero. -/
def lround (q : ℚ) : Int := if 0 ≤ q then ⌊q + 1 / 2⌋ else ⌈q - 1 / 2⌉

/-- `(1.0 - lambda) * n0 + lambda * n1`, `libs/MeshKernel/src/Polygon.cpp:298`. -/
def pointAt (a b : Pt) (t : ℚ) : Pt := ⟨(1 - t) * a.x + t * b.x, (1 - t) * a.y + t * b.y⟩

/-- The loop of `RefineSegment`, `libs/MeshKernel/src/Polygon.cpp:295-299`, with `fuel` rounds left. -/
def segmentLoop (a b : Pt) (n : Int) : Nat → Int → List Pt → List Pt
  | 0, _, acc => acc
  | fuel + 1, i, acc =>
    if i < n then segmentLoop a b n fuel (i + 1) (acc ++ [pointAt a b ((i : ℚ) / (n : ℚ))]) else acc

/-- `RefineSegment`, `libs/MeshKernel/src/Polygon.cpp:281-300`. -/
def refineSegment (dist : Pt → Pt → ℚ) (d : ℚ) (acc : List Pt) (n0 n1 : Pt) : List Pt :=
  let n := lround (dist n0 n1 / d)
  segmentLoop n0 n1 n n.toNat 1 (acc ++ [n0])

/-- The loops `for (auto it = from; it != to; ++it) RefineSegment(...)`,
`libs/MeshKernel/src/Polygon.cpp:413-416,433-434,440-441`: `count` rounds from position `i`. -/
def refineLoop (dist : Pt → Pt → ℚ) (d : ℚ) (nodes : List Pt) : Nat → Nat → List Pt → Res (List Pt)
  | 0, _, acc => .ok acc
  | count + 1, i, acc => do
    let n0 ← vget nodes i
    let n1 ← vget nodes (i + 1)
    refineLoop dist d nodes count (i + 1) (refineSegment dist d acc n0 n1)

/-- `Polygon::Refine`, `libs/MeshKernel/src/Polygon.cpp:379-445`.  Left out: the size estimates, which only
reserve memory.  The distance must not be zero. -/
def refine (dist : Pt → Pt → ℚ) (d : ℚ) (nodes : List Pt) (startIndex endIndex : Nat) : Res (List Pt) :=
  if startIndex = endIndex then .ok nodes
  else if startIndex ≥ nodes.length ∨ endIndex ≥ nodes.length then .throw
  else if startIndex < endIndex then do
    let r ← refineLoop dist d nodes (endIndex - startIndex) startIndex (nodes.take startIndex)
    .ok (r ++ nodes.drop endIndex)
  else do
    let r1 ← refineLoop dist d nodes endIndex 0 []
    let r2 := r1 ++ (nodes.take startIndex).drop endIndex
    let r3 ← refineLoop dist d nodes (nodes.length - 1 - startIndex) startIndex r2
    let last ← vget nodes (nodes.length - 1)
    .ok (r3 ++ [last])

/-- `Polygons::RefinePolygon`, `libs/MeshKernel/src/Polygons.cpp:168-178`. -/
def refinePolygon (dist : Pt → Pt → ℚ) (d : ℚ) (P : PolyList) (k startIndex endIndex : Nat) : Res (List Pt) :=
  match P.enclosures[k]? with
  | none => .throw
  | some e => refine dist d e.outer startIndex endIndex

/-- `Polygons::RefineFirstPolygon`, `libs/MeshKernel/src/Polygons.cpp:140-166`. -/
def refineFirstPolygon (dist : Pt → Pt → ℚ) (d : ℚ) (P : PolyList) (startIndex endIndex : Nat) : Res (List Pt) :=
  match P.enclosures with
  | [] => .throw
  | e :: _ => do
    let last := if startIndex = 0 ∧ endIndex = 0 then e.outer.length - 1 else endIndex
    let (k, s, t) ← P.index startIndex last
    refinePolygon dist d P k s t

end Verif.Polygons
