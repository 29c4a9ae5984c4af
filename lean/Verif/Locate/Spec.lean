import Verif.Locate.Model
import Verif.Faces.Spec
/-!
# Specification: the face a point lies in
-/
namespace Verif.Locate
open Verif.Mesh Verif.Faces
open Verif.Polygons (Pt OnSegment sides turns ringOf inPolygonNodes area2)

/-- The squared distance between two points. -/
def dist2 (p q : Pt) : ℚ := (p.x - q.x) * (p.x - q.x) + (p.y - q.y) * (p.y - q.y)

/-- No edge has its middle closer to `p` than edge `e`. -/
def NearestEdge (m : Mesh Pt) (p : Pt) (e : Nat) : Prop :=
  ∃ c, centre m e = some c ∧ ∀ e' c', centre m e' = some c' → dist2 p c ≤ dist2 p c'

/-- The search answers with a nearest edge, if there is one. -/
def SearchOk (m : Mesh Pt) (search : Pt → Res Nat) : Prop :=
  ∀ p, (∃ e c, centre m e = some c) → ∃ e, search p = .ok e ∧ NearestEdge m p e

/-- The outline of a face: its corners, the first one repeated. -/
def outline (m : Mesh Pt) (s : State) (f : Nat) : List Pt := ringOf ((s.facesNodes.getD f []).map (position m.nodes))

/-- The point lies on a side of the ring, or the ring goes around it. -/
def InRing (ring : List Pt) (p : Pt) : Prop :=
  (∃ g ∈ sides ring, OnSegment g.1 g.2 p) ∨ ∀ o, (∀ q ∈ ring, ¬ OnSegment o q p) → turns o ring p ≠ 0

/-- The point lies in face `f`. -/
def InFace (m : Mesh Pt) (s : State) (f : Nat) (p : Pt) : Prop := f < s.facesNodes.length ∧ InRing (outline m s f) p

/-- The point is on none of the lines that carry the sides of the face. -/
def OffLines (m : Mesh Pt) (s : State) (f : Nat) (p : Pt) : Prop := ∀ g ∈ sides (outline m s f), area2 g.1 g.2 p ≠ 0

/-- No node of the mesh has a missing coordinate. -/
def NodesValid (m : Mesh Pt) : Prop := ∀ q, some q ∈ m.nodes → q.isValid = true

/-- All edges belong to a grid of equal rectangles, `w` wide and `h` high, with a corner at `(a, b)`. -/
def Uniform (m : Mesh Pt) (a b w h : ℚ) : Prop :=
  ∀ (e : Nat) c, centre m e = some c → (∃ k l : Int, c = ⟨a + k * w, b + (l + 1 / 2) * h⟩) ∨ ∃ k l : Int, c = ⟨a + (k + 1 / 2) * w, b + l * h⟩

/-- Face `f` is the rectangle `(i, j)` of the grid: the four edges around it exist, and all edges at these places
are sides of the face. -/
def IsCell (m : Mesh Pt) (s : State) (a b w h : ℚ) (f : Nat) (i j : Int) : Prop :=
  ∀ c : Pt, c = ⟨a + i * w, b + (j + 1 / 2) * h⟩ ∨ c = ⟨a + (i + 1) * w, b + (j + 1 / 2) * h⟩ ∨ c = ⟨a + (i + 1 / 2) * w, b + j * h⟩ ∨
    c = ⟨a + (i + 1 / 2) * w, b + (j + 1) * h⟩ → (∃ e, centre m e = some c) ∧ ∀ e, centre m e = some c → Borders s f e

end Verif.Locate
