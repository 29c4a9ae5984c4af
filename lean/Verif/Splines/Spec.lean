import Verif.Splines.Model
/-!
# Specification: the natural cubic spline through given points

Written without reference to how the code computes it.
-/
namespace Verif.Splines
open Verif.Polygons (Pt missingDouble outerSep isSep)

/-- A cubic polynomial by its coefficients. -/
structure Cubic where
  c0 : ℚ
  c1 : ℚ
  c2 : ℚ
  c3 : ℚ

/-- The value at `t`. -/
def Cubic.value (s : Cubic) (t : ℚ) : ℚ := s.c0 + s.c1 * t + s.c2 * t ^ 2 + s.c3 * t ^ 3
/-- The first derivative at `t`. -/
def Cubic.slope (s : Cubic) (t : ℚ) : ℚ := s.c1 + 2 * s.c2 * t + 3 * s.c3 * t ^ 2
/-- The second derivative at `t`. -/
def Cubic.bend (s : Cubic) (t : ℚ) : ℚ := 2 * s.c2 + 6 * s.c3 * t

/-- The pieces `S` make a natural cubic spline through the values `ys`: one piece between any two successive values, each over
the unit interval; where two pieces meet, slope and second derivative agree; at both ends the second derivative is zero. -/
structure NaturalSpline (ys : List ℚ) (S : List Cubic) : Prop where
  pieces : S.length + 1 = ys.length
  starts : ∀ (i : Nat) s y, S[i]? = some s → ys[i]? = some y → s.value 0 = y
  ends : ∀ (i : Nat) s y, S[i]? = some s → ys[i + 1]? = some y → s.value 1 = y
  slopes : ∀ (i : Nat) s r, S[i]? = some s → S[i + 1]? = some r → s.slope 1 = r.slope 0
  bends : ∀ (i : Nat) s r, S[i]? = some s → S[i + 1]? = some r → s.bend 1 = r.bend 0
  first : ∀ s, S[0]? = some s → s.bend 0 = 0
  last : ∀ s, S[ys.length - 2]? = some s → s.bend 1 = 0

/-- A curve: pieces for both coordinates. -/
structure Curve (ps : List Pt) (X Y : List Cubic) : Prop where
  x : NaturalSpline (ps.map Pt.x) X
  y : NaturalSpline (ps.map Pt.y) Y

/-- The point of piece `n` at `t`. -/
def pointAt (X Y : List Cubic) (n : Nat) (t : ℚ) : Pt :=
  ⟨((X[n]?).map fun s => s.value t).getD 0, ((Y[n]?).map fun s => s.value t).getD 0⟩

/-- The points handed out for one spline: each control point, followed by the points of the next piece at
`1 / (count + 1), …, count / (count + 1)`, and the last control point. -/
def sampled (ps : List Pt) (X Y : List Cubic) (count : Nat) : List Pt :=
  ((List.range (ps.length - 1)).flatMap fun n =>
    ps[n]?.toList ++ (List.range count).map fun k => pointAt X Y n (((k + 1 : Nat) : ℚ) / ((count : ℚ) + 1))) ++ ps.getLast?.toList

/-- None of the points to hand out has a missing coordinate. -/
def SamplesValid (ps : List Pt) (X Y : List Cubic) (count : Nat) : Prop :=
  ∀ n k : Nat, n + 1 < ps.length → k < count → (pointAt X Y n (((k + 1 : Nat) : ℚ) / ((count : ℚ) + 1))).isValid = true

/-- Splines divided by separators. -/
def joined (l : List (List Pt)) : List Pt := List.intercalate [outerSep] l

/-- Each spline has its second derivatives. -/
structure Kept (s : Container) : Prop where
  len : s.derivatives.length = s.nodes.length
  each : ∀ (i : Nat) ps, s.nodes[i]? = some ps → s.derivatives[i]? = some (splineDerivative ps)

/-- The points of a spline: none is a separator. -/
def Plain (ps : List Pt) : Prop := ∀ p ∈ ps, isSep missingDouble p = false

/-- The edits of the container. -/
inductive Edit where
  | add (ps : List Pt)
  | replace (i : Nat) (ps : List Pt)
  | delete (i : Nat)
  | swap (i j : Nat)
  | reverse (i : Nat)

/-- The splines handed in have no separators. -/
def Edit.PlainPoints : Edit → Prop
  | .add ps => Plain ps
  | .replace _ ps => Plain ps
  | _ => True

/-- One edit, `AddSpline` with all points. -/
def apply (s : Container) : Edit → Res Container
  | .add ps => addSpline s ps 0 ps.length
  | .replace i ps => Splines.replace s i ps
  | .delete i => deleteSpline s i
  | .swap i j => swapSplines s i j
  | .reverse i => Splines.reverse s i

/-- A history. -/
def run (s : Container) : List Edit → Res Container
  | [] => .ok s
  | e :: es => do
    let s' ← apply s e
    run s' es

end Verif.Splines
