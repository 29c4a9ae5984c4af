import Verif.Polygons.ContainsModel
/-!
# Specification of containment
-/
namespace Verif.Polygons

/-- The point lies in the outer ring of the polygon and in none of its holes. -/
def InArea (inside : List Pt → Pt → Bool) (e : Enclosure) (p : Pt) : Prop :=
  inside e.outer p = true ∧ ∀ r ∈ e.inner, inside r p = false

/-- The point lies in a hole of the polygon. -/
def InHole (inside : List Pt → Pt → Bool) (e : Enclosure) (p : Pt) : Prop :=
  inside e.outer p = true ∧ ∃ r ∈ e.inner, inside r p = true

/-- The closed ring with these corners. -/
def ringOf (vs : List Pt) : List Pt := vs ++ vs.head?.toList

/-- The sides of a ring. -/
def sides (nodes : List Pt) : List (Pt × Pt) := nodes.zip nodes.tail

/-- `p` lies on the segment from `a` to `b`. -/
def OnSegment (a b p : Pt) : Prop :=
  ∃ t : ℚ, 0 ≤ t ∧ t ≤ 1 ∧ p.x = (1 - t) * a.x + t * b.x ∧ p.y = (1 - t) * a.y + t * b.y

/-- Twice the signed area of the triangle `a b c`. -/
def area2 (a b c : Pt) : ℚ := (b.x - a.x) * (c.y - a.y) - (b.y - a.y) * (c.x - a.x)

/-- How often (0 or 1) and in which direction the triangle `a b c` goes around `p`: 1 when `p` lies
strictly inside and the triangle is counter-clockwise, -1 when it is clockwise. -/
def triangleTurn (a b c p : Pt) : Int :=
  if 0 < area2 a b p ∧ 0 < area2 b c p ∧ 0 < area2 c a p then 1
  else if area2 a b p < 0 ∧ area2 b c p < 0 ∧ area2 c a p < 0 then -1
  else 0

/-- How often the ring goes around `p`: each side makes a triangle with the base point `o`; count
the triangles that cover `p`, with their direction. -/
def turns (o : Pt) (nodes : List Pt) (p : Pt) : Int :=
  ((sides nodes).map fun s => triangleTurn o s.1 s.2 p).sum

/-- `p` lies in the rectangle spanned by the points. -/
def InBox (nodes : List Pt) (p : Pt) : Prop :=
  (∃ q ∈ nodes, q.x ≤ p.x) ∧ (∃ q ∈ nodes, p.x ≤ q.x) ∧ (∃ q ∈ nodes, q.y ≤ p.y) ∧ ∃ q ∈ nodes, p.y ≤ q.y

/-- Coordinates of finite doubles, apart from the two extreme ones. -/
def Pt.Finite (p : Pt) : Prop := -dblMax < p.x ∧ p.x < dblMax ∧ -dblMax < p.y ∧ p.y < dblMax

/-- A ring as `Polygon` holds it, closed exactly: at least three sides, first and last node equal,
no missing coordinates. -/
def RingNodes (nodes : List Pt) : Prop :=
  4 ≤ nodes.length ∧ nodes.head? = nodes.getLast? ∧ ∀ q ∈ nodes, q.isValid = true

end Verif.Polygons
