import Verif.Faces.Spec
import Verif.Mesh.Spec
/-!
# Specification of the boundary polygons
-/
namespace Verif.Outline
open Verif.Mesh Verif.Faces
variable {P : Type}

/-- The edges `es`, one after the other, lead along the nodes `ns`. -/
def Path (edges : List Edge) : List Nat → List Nat → Prop
  | [_], [] => True
  | a :: b :: ns, e :: es => (∃ p, edges[e]? = some p ∧ Joins p a b) ∧ Path edges (b :: ns) es
  | _, _ => False

/-- A closed polygon of at least three sides along the edges `es`; it ends where it starts. -/
structure Closed (edges : List Edge) (ns es : List Nat) : Prop where
  path : Path edges ns es
  back : ns.head? = ns.getLast?
  sides : 3 ≤ es.length

/-- The edge is on the boundary: it is a side of exactly one face. -/
def OnBoundary (s : State) (e : Nat) : Prop := ∃ f, Borders s f e ∧ ∀ g, Borders s g e → g = f

/-- Both ends of the edge are points of the polygon. -/
def EndsInside (inside : P → Bool) (m : Mesh P) (e : Nat) : Prop :=
  ∃ a b x y, m.edges[e]? = some (a, b) ∧ m.nodes[a]? = some (some x) ∧ m.nodes[b]? = some (some y) ∧ inside x = true ∧ inside y = true

/-- The coordinates of the polygons, with a separator between one and the next. -/
def drawn (m : Mesh P) (rings : List (List Nat × List Nat)) : List (Option P) :=
  List.intercalate [none] (rings.map fun r => r.1.map fun n => (m.nodes[n]?).join)

/-- The polygons are closed and have each of the edges `E` as a side, exactly once. -/
structure Outlines (m : Mesh P) (E : Nat → Prop) (rings : List (List Nat × List Nat)) : Prop where
  closed : ∀ r ∈ rings, Closed m.edges r.1 r.2
  once : (rings.flatMap (·.2)).Nodup
  all : ∀ e, e ∈ rings.flatMap (·.2) ↔ E e

end Verif.Outline
