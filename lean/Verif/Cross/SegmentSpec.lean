import Verif.Cross.SegmentModel
/-!
# Specification: what it is for a polyline to cross an edge
-/
namespace Verif.Cross
open Verif.Polygons (Pt)
open Verif.Mesh (Edge)

/-- The segments `p q` and `a b` have a point in common. -/
def Meet (p q a b : Pt) : Prop :=
  ∃ s t : ℚ, 0 ≤ s ∧ s ≤ 1 ∧ 0 ≤ t ∧ t ≤ 1 ∧
    p.x + s * (q.x - p.x) = a.x + t * (b.x - a.x) ∧ p.y + s * (q.y - p.y) = a.y + t * (b.y - a.y)

/-- The parallelogram of the two segments has at least an area of a hundred thousandth of the longest coordinate difference;
in particular they are not parallel. -/
def Apart (p q a b : Pt) : Prop := eps p q a b ≤ |det p q a b|

/-- Segment `i` of the polyline and edge `e` of the mesh have a point in common and are not nearly parallel. -/
def Met (nodes : List (Option Pt)) (edges : List Edge) (poly : List Pt) (i e : Nat) : Prop :=
  ∃ p q a b, piece poly i = some (p, q) ∧ ends nodes edges e = some (a, b) ∧ Meet p q a b ∧ Apart p q a b

end Verif.Cross
