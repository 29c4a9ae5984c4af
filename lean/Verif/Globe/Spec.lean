import Verif.Globe.Model
/-!
# Specification: what a global mesh covers
-/
namespace Verif.Globe
variable {K : Type} [Field K] [LinearOrder K]

/-- The face is drawn around a box that contains the point. -/
def Contains (f : List (K × K)) (x y : K) : Prop :=
  ∃ x0 x1 y0 y1, (x0, y0) ∈ f ∧ (x1, y0) ∈ f ∧ (x1, y1) ∈ f ∧ (x0, y1) ∈ f ∧ x0 ≤ x ∧ x ≤ x1 ∧ y0 ≤ y ∧ y ≤ y1

/-- The point lies inside a box with corners of the face, not on its sides. -/
def Inside (f : List (K × K)) (x y : K) : Prop :=
  ∃ x0 x1 y0 y1, (x0, y0) ∈ f ∧ (x1, y0) ∈ f ∧ (x1, y1) ∈ f ∧ (x0, y1) ∈ f ∧ x0 < x ∧ x < x1 ∧ y0 < y ∧ y < y1

/-- A point of the sphere in degrees. -/
def OnSphere (x y : K) : Prop := -180 ≤ x ∧ x ≤ 180 ∧ -90 ≤ y ∧ y ≤ 90

end Verif.Globe
