import Verif.Polygons.ParseModel
/-!
# Specification of separated point lists

A polygon list as a user writes it down: polygons with holes, each ring a list of points,
polygons divided by one point (-999, -999), rings of a polygon by one point (-998, -998).
-/
namespace Verif.Polygons

/-- An outer ring and its holes. -/
abbrev Area := List Pt × List (List Pt)

/-- The rings of a polygon, outer ring first. -/
def Area.rings (a : Area) : List (List Pt) := a.1 :: a.2

/-- The flat list of points that describes the polygons. -/
def flat (as : List Area) : List Pt :=
  List.intercalate [outerSep] (as.map fun a => List.intercalate [innerSep] a.rings)

/-- A ring of points that cannot be taken for separators. -/
def Separable (r : List Pt) : Prop :=
  r ≠ [] ∧ ∀ p ∈ r, isSep missingDouble p = false ∧ isSep innerOuterSeparator p = false

/-- A polygon of such rings, in which no hole is a single point. -/
def Area.Separable (a : Area) : Prop :=
  (∀ r ∈ a.rings, Polygons.Separable r) ∧ ∀ r ∈ a.2, 2 ≤ r.length

/-- A ring the library accepts: at least three corners, closed, without missing coordinates. -/
def ClosedRing (r : List Pt) : Prop :=
  4 ≤ r.length ∧ (∀ p ∈ r, p.isValid = true) ∧
    ∃ p q, r.head? = some p ∧ r.getLast? = some q ∧ p.same q = true

/-- Number of points before the `k`-th polygon. -/
def startOf (as : List Area) (k : Nat) : Nat :=
  ((as.take k).map fun a => (flat [a]).length + 1).sum

end Verif.Polygons
