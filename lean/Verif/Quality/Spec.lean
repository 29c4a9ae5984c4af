import Verif.Quality.Model
import Verif.Polygons.ContainsSpec
import Verif.Polygons.AreaProps
import Verif.Faces.Spec
/-!
# Specification: angles, areas and centres
-/
namespace Verif.Quality
open Verif.Mesh Verif.Faces
open Verif.Polygons (Pt area2 shoelace minArea)

/-- The square of the distance of two points. -/
def gap (p q : Pt) : ℚ := (q.x - p.x) ^ 2 + (q.y - p.y) ^ 2

/-- The inner product of the vectors from `o` to `p` and from `o` to `q`: positive for an acute angle at `o`, negative for an obtuse one. -/
def dotAt (o p q : Pt) : ℚ := (p.x - o.x) * (q.x - o.x) + (p.y - o.y) * (q.y - o.y)

/-- The point lies in the triangle or on its boundary. -/
def InTriangle (p q r c : Pt) : Prop :=
  ∃ u v w : ℚ, 0 ≤ u ∧ 0 ≤ v ∧ 0 ≤ w ∧ u + v + w = 1 ∧ c.x = u * p.x + v * q.x + w * r.x ∧ c.y = u * p.y + v * q.y + w * r.y

/-- All angles are acute. -/
def Acute (p q r : Pt) : Prop := 0 < dotAt p q r ∧ 0 < dotAt q r p ∧ 0 < dotAt r p q

/-- One angle is obtuse. -/
def Obtuse (p q r : Pt) : Prop := dotAt p q r < 0 ∨ dotAt q r p < 0 ∨ dotAt r p q < 0

/-- The inner product of the vectors `a b` and `c d`. -/
def dot (a b c d : Pt) : ℚ := (b.x - a.x) * (d.x - c.x) + (b.y - a.y) * (d.y - c.y)

/-- `v` is the absolute value of the cosine of the angle between the lines `a b` and `c d`. -/
def AbsCosine (v : ℝ) (a b c d : Pt) : Prop := 0 ≤ v ∧ v ≤ 1 ∧ v ^ 2 * ((gap a b : ℝ) * (gap c d : ℝ)) = (dot a b c d : ℝ) ^ 2

/-! ## Faces -/

/-- The corners of face `f`. -/
def corners (m : Mesh Pt) (s : State) (f : Nat) : List Pt := (s.facesNodes.getD f []).map (position m.nodes)

/-- The centre the library gives face `f`. -/
def centreOf (other : List Pt → List Nat → Pt) (m : Mesh Pt) (s : State) (f : Nat) : Pt :=
  centre other m.nodes s (s.facesNodes.getD f []) (s.facesEdges.getD f [])

/-- The centre of mass the library gives face `f`. -/
def massOf (m : Mesh Pt) (s : State) (f : Nat) : Pt := (areaAndMass m.nodes (s.facesNodes.getD f [])).2

/-- The area of face `f`, with a hundred millionth for smaller ones. -/
def areaOf (m : Mesh Pt) (s : State) (f : Nat) : ℚ := max (shoelace (corners m s f)) minArea

/-- Face `f` is a triangle with an obtuse angle. -/
def ObtuseFace (m : Mesh Pt) (s : State) (f : Nat) : Prop := ∃ p q r, corners m s f = [p, q, r] ∧ Obtuse p q r

/-- The centres of the two faces of edge `e` are less than the threshold times the mean of the roots of the areas apart. -/
def ShortFlow (other : List Pt → List Nat → Pt) (m : Mesh Pt) (s : State) (threshold : ℚ) (e : Nat) : Prop :=
  ∃ f g, f ≠ g ∧ Borders s f e ∧ Borders s g e ∧
    √((gap (centreOf other m s f) (centreOf other m s g) : ℚ) : ℝ) < (threshold : ℝ) * ((√(areaOf m s f : ℝ) + √(areaOf m s g : ℝ)) / 2)

end Verif.Quality
