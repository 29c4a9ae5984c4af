import Verif.Faces.OrderModel
import Verif.Faces.Spec
import Verif.Mesh.Spec
import Verif.Polygons.AreaProps
/-!
# Specification: the outline of a face in the plane
-/
namespace Verif.Faces
open Verif.Mesh Verif.Polygons

/-- Going around counterclockwise from `a`, the direction `x` comes strictly before `b`: of the three angles from `a` to `x`, from `x` to
`b` and from `b` to `a`, which make up a full turn, two are less than half a turn. -/
def InSector (a b x : Pt) : Prop :=
  (0 < cross a x ∧ 0 < cross x b) ∨ (0 < cross x b ∧ 0 < cross b a) ∨ (0 < cross b a ∧ 0 < cross a x)

/-- Two vectors have the same direction. -/
def SameDirection (v w : Pt) : Prop := cross v w = 0 ∧ 0 < v.x * w.x + v.y * w.y

/-- The vector along edge `e` from its end `n` to the other end. -/
def along (m : Mesh Pt) (n e : Nat) : Pt := delta (position m.nodes n) (position m.nodes (otherNode (edgeAt m e) n))

/-- No other edge starts inwards from the corner between the sides `i` and `i + 1`. -/
def EmptyCorner (m : Mesh Pt) (ns es : List Nat) (i : Nat) : Prop :=
  ∀ (a e e' : Nat), ns[(i + 1) % ns.length]? = some a → es[i]? = some e → es[(i + 1) % ns.length]? = some e' →
    ∀ x, touches (edgeAt m x) a → x ≠ e → x ≠ e' → ¬ InSector (along m a e') (along m a e) (along m a x)

/-- At node `n` no two edges have the same direction and no edge is as short as the tolerance of the code. -/
structure ClearAt (m : Mesh Pt) (n : Nat) : Prop where
  long : ∀ e, touches (edgeAt m e) n → minimumDelta ≤ |(along m n e).x| ∨ minimumDelta ≤ |(along m n e).y|
  apart : ∀ e e', touches (edgeAt m e) n → touches (edgeAt m e') n → e ≠ e' → ¬ SameDirection (along m n e) (along m n e')

/-- The polygon is a cell of the plane divided by the edges, as far as can be seen from its outline: a counterclockwise polygon of
3 to 6 different nodes, with no other edge starting inwards from a corner. -/
structure Outline (m : Mesh Pt) (ns es : List Nat) : Prop where
  proper : Proper m.edges ns es
  ccw : 0 < shoelace (ns.map (position m.nodes))
  empty : ∀ i, i < ns.length → EmptyCorner m ns es i

/-- The same except for the first corner. -/
structure OpenOutline (m : Mesh Pt) (ns es : List Nat) : Prop where
  proper : Proper m.edges ns es
  ccw : 0 < shoelace (ns.map (position m.nodes))
  empty : ∀ i, i + 1 < ns.length → EmptyCorner m ns es i

end Verif.Faces
