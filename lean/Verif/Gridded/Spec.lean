import Verif.Gridded.Model
/-!
# Specification: bilinear interpolation between gridded samples
-/
namespace Verif.Gridded
open Verif.Mesh
open Verif.Polygons (Pt)

/-- The `i`-th coordinate in one direction. -/
def Axis.coord : Axis → Nat → Option ℚ
  | .regular o c n, i => if i < n then some (o + i * c) else none
  | .listed l, i => l[i]?

/-- The coordinates increase. -/
def Axis.Rising : Axis → Prop
  | .regular _ c _ => 0 < c
  | .listed l => l.Pairwise (· < ·)

/-- The value of the sample in column `i` and row `j`; the rows follow each other. -/
def Samples.at (g : Samples) (i j : Nat) : Option ℚ := g.values[j * g.xs.num + i]?

/-- Samples with increasing coordinates and a value for each pair of them. -/
structure Samples.Proper (g : Samples) : Prop where
  xs : g.xs.Rising
  ys : g.ys.Rising
  full : g.values.length = g.xs.num * g.ys.num
  fewX : g.xs.num ≤ missing
  fewY : g.ys.num ≤ missing

/-- `x` lies between the `i`-th coordinate `u` and the next one `v`, and is not the last coordinate or beyond. -/
structure Axis.Between (a : Axis) (i : Nat) (u v x : ℚ) : Prop where
  first : a.coord i = some u
  second : a.coord (i + 1) = some v
  low : u ≤ x
  high : x ≤ v
  inside : ∃ k w, a.coord k = some w ∧ x < w

/-- The function of the form `α + β x + γ y + δ x y` with the values `a`, `b`, `c`, `d` at the corners of the rectangle from `(x0, y0)` to `(x1, y1)`. -/
def bilinear (x0 x1 y0 y1 a b c d x y : ℚ) : ℚ :=
  ((x1 - x) * (y1 - y) * a + (x - x0) * (y1 - y) * b + (x1 - x) * (y - y0) * c + (x - x0) * (y - y0) * d) / ((x1 - x0) * (y1 - y0))

end Verif.Gridded
