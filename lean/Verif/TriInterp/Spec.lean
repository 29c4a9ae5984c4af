import Verif.TriInterp.Model
import Verif.Polygons.ContainsSpec
import Verif.Cross.SegmentSpec
/-!
# Specification: triangulations and linear interpolation in a triangle
-/
namespace Verif.TriInterp
open Verif.Mesh
open Verif.Polygons (Pt area2 OnSegment InBox sides)
open Verif.Sampling (Spot)

/-- `p` lies in the triangle, and `v` is the mean of the values at the corners with the weights that give `p` as the mean of the corners. -/
def Tri.Mean (x : Tri) (p : Pt) (v : ℚ) : Prop :=
  ∃ r s t : ℚ, 0 ≤ r ∧ 0 ≤ s ∧ 0 ≤ t ∧ r + s + t = 1 ∧ p.x = r * x.a.pos.x + s * x.b.pos.x + t * x.c.pos.x ∧
    p.y = r * x.a.pos.y + s * x.b.pos.y + t * x.c.pos.y ∧ v = r * x.a.value + s * x.b.value + t * x.c.value

/-- `p` lies in the triangle. -/
def Tri.Contains (x : Tri) (p : Pt) : Prop := ∃ v, x.Mean p v

/-- The triangle of face `f`. -/
def triAt (T : Tables) (ss : List Spot) (f : Nat) : Option Tri :=
  (T.faceNodes[f]?).bind fun t => (ss[t.1]?).bind fun a => (ss[t.2.1]?).bind fun b => (ss[t.2.2]?).map fun c => ⟨a, b, c⟩

/-- The position of sample `n`. -/
def posOf (ss : List Spot) (n : Nat) : Pt := (ss[n]?.map (·.pos)).getD ⟨0, 0⟩

/-- The sides of a face, in the order of its nodes. -/
def sidesOf (t : Nat × Nat × Nat) : List (Nat × Nat) := [(t.1, t.2.1), (t.2.1, t.2.2), (t.2.2, t.1)]

/-- Edge `e` joins the two nodes. -/
def Ends (T : Tables) (e : Nat) (s : Nat × Nat) : Prop := T.edgeNodes[e]? = some s ∨ T.edgeNodes[e]? = some s.swap

/-- Edge `e` is listed for face `f`. -/
def Has (T : Tables) (f e : Nat) : Prop := ∃ es, T.faceEdges[f]? = some es ∧ e ∈ three es

/-- A triangulation of the convex hull of the samples: counter-clockwise triangles, each with its three sides as edges; two triangles with a common edge lie on
different sides of it; no sample lies beyond an edge of only one triangle. -/
structure Proper (T : Tables) (ss : List Spot) : Prop where
  lengths : T.faceEdges.length = T.faceNodes.length
  nonempty : T.faceNodes ≠ []
  few : T.faceNodes.length ≤ missing
  corners : ∀ t ∈ T.faceNodes, ∀ n ∈ three t, n < ss.length
  turn : ∀ t ∈ T.faceNodes, 1 / 1000000000000 ≤ area2 (posOf ss t.1) (posOf ss t.2.1) (posOf ss t.2.2)
  valid : ∀ s ∈ ss, s.pos.isValid = true
  distinct : ∀ es ∈ T.faceEdges, (three es).Nodup
  edges : ∀ (f : Nat) t es, T.faceNodes[f]? = some t → T.faceEdges[f]? = some es →
    (∀ e ∈ three es, ∃ s ∈ sidesOf t, Ends T e s) ∧ ∀ s ∈ sidesOf t, ∃ e ∈ three es, Ends T e s
  shared : ∀ (f g : Nat) t t' e s, f ≠ g → T.faceNodes[f]? = some t → T.faceNodes[g]? = some t' → Has T f e → Has T g e →
    s ∈ sidesOf t → Ends T e s → s.swap ∈ sidesOf t'
  hull : ∀ (f : Nat) t e s, T.faceNodes[f]? = some t → Has T f e → (∀ g, Has T g e → g = f) → s ∈ sidesOf t → Ends T e s →
    ∀ q ∈ ss, 0 ≤ area2 (posOf ss s.1) (posOf ss s.2) q.pos

/-- Faces `f` and `g` with the nodes `t` and `t'` have a common edge, and `d` is the corner of `g` opposite to it. -/
def Opposite (T : Tables) (f g : Nat) (t : Nat × Nat × Nat) (d : Nat) : Prop :=
  f ≠ g ∧ T.faceNodes[f]? = some t ∧ (∃ e, Has T f e ∧ Has T g e) ∧ ∃ t', T.faceNodes[g]? = some t' ∧ d ∈ three t' ∧ d ∉ three t

/-- The value at `q` of the linear function with the heights `h` at the corners of a triangle. -/
def plane (P : Nat → Pt) (h : Nat → ℚ) (t : Nat × Nat × Nat) (q : Pt) : ℚ :=
  (area2 (P t.2.1) (P t.2.2) q * h t.1 + area2 (P t.2.2) (P t.1) q * h t.2.1 + area2 (P t.1) (P t.2.1) q * h t.2.2) /
    area2 (P t.1) (P t.2.1) (P t.2.2)

/-- A regular triangulation: with suitable heights of the samples the triangles form a surface that is convex at every edge. -/
def Regular (T : Tables) (ss : List Spot) : Prop :=
  ∃ h : Nat → ℚ, ∀ f g t d, Opposite T f g t d → plane (posOf ss) h t (posOf ss d) < h d

/-- The square of the distance. -/
def dist2 (o p : Pt) : ℚ := (p.x - o.x) * (p.x - o.x) + (p.y - o.y) * (p.y - o.y)

/-- A strict Delaunay triangulation: the opposite corner of a neighbouring triangle lies outside the circle through the corners. -/
def Delaunay (T : Tables) (ss : List Spot) : Prop :=
  ∀ f g t d, Opposite T f g t d → ∀ o, dist2 o (posOf ss t.1) = dist2 o (posOf ss t.2.1) → dist2 o (posOf ss t.1) = dist2 o (posOf ss t.2.2) →
    dist2 o (posOf ss t.1) < dist2 o (posOf ss d)

/-- The point from which the search leaves a triangle: the mean of its corners, the first one counted twice. -/
def heart (x : Tri) : Pt := ⟨(2 * x.a.pos.x + x.b.pos.x + x.c.pos.x) / 4, (2 * x.a.pos.y + x.b.pos.y + x.c.pos.y) / 4⟩

/-- A location that lies on no side of a triangle extended within the bounding box of the triangle. -/
structure Fair (T : Tables) (ss : List Spot) (p : Pt) : Prop where
  valid : p.isValid = true
  finite : p.Finite
  fair : ∀ f x, triAt T ss f = some x → InBox x.ring p → ∀ s ∈ sides x.ring, area2 s.1 s.2 p = 0 → OnSegment s.1 s.2 p

/-- Also the lines to it from the triangles cut no side at a very small angle. -/
structure Clear (T : Tables) (ss : List Spot) (p : Pt) : Prop extends Fair T ss p where
  apart : ∀ f x, triAt T ss f = some x → ∀ s ∈ sides x.ring, Cross.Meet (heart x) p s.1 s.2 → Cross.Apart (heart x) p s.1 s.2

/-- The search tree finds one of the points if there are any. -/
def Finds (nearest : List Pt → Pt → Option Nat) : Prop := ∀ cs p, cs ≠ [] → ∃ t < cs.length, nearest cs p = some t

/-- Triangles meet in common sides and corners only. -/
def Conforming (T : Tables) (ss : List Spot) : Prop :=
  ∀ f g x y p, f ≠ g → triAt T ss f = some x → triAt T ss g = some y → x.Contains p → y.Contains p →
    ∃ u v, u ∈ [x.a, x.b, x.c] ∧ u ∈ [y.a, y.b, y.c] ∧ v ∈ [x.a, x.b, x.c] ∧ v ∈ [y.a, y.b, y.c] ∧ OnSegment u.pos v.pos p

end Verif.TriInterp
