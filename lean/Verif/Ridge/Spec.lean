import Verif.Ridge.Model
/-!
# Ridges of gridded samples: what is claimed
-/
namespace Verif.Ridge
variable {K : Type} [Field K] [LinearOrder K]

/-- The grid is regular, has `nx` columns and `ny` rows, and its values are those of the function `f`: row `r` from below and column `c`
from the left have their value at the place `nx * r + c`. -/
structure Sampled (g : Grid K) (nx ny : Nat) (f : K → K → K) : Prop where
  numX : g.numX = nx
  numY : g.numY = ny
  posX : 0 < nx
  posY : 0 < ny
  small : nx * ny ≤ missing
  regular : g.xs = none ∨ g.ys = none
  room : nx * ny ≤ g.values.length
  vals : ∀ r c, r < ny → c < nx → g.values[nx * r + c]? = some (f (g.x0 + c * g.size) (g.y0 + r * g.size))

/-- The result gives the value `v r c` at row `r` from below and column `c` from the left; it runs through the columns from the left, and
through each column from above. -/
def Reports (out : List (Strength K)) (g : Grid K) (nx ny : Nat) (v : Nat → Nat → Option K) : Prop :=
  out.length = nx * ny ∧ ∀ r c, r < ny → c < nx → out[ny * c + (ny - 1 - r)]? = some ⟨g.x0 + c * g.size, g.y0 + r * g.size, v r c⟩

/-- Not on the border of the grid. -/
def Interior (nx ny r c : Nat) : Prop := 1 ≤ r ∧ r + 1 < ny ∧ 1 ≤ c ∧ c + 1 < nx

/-- `μ` is the eigenvalue of larger magnitude of the second derivatives of `A x² + B x y + C y² + …`, the matrix with the rows `(2A, B)` and
`(B, 2C)`: it is a root of the characteristic polynomial, and the other root, which makes the sum `2A + 2C`, is not larger. -/
def Strongest (A B C μ : K) : Prop := μ * μ - (2 * A + 2 * C) * μ + (2 * A * (2 * C) - B * B) = 0 ∧ |2 * A + 2 * C - μ| ≤ |μ|

/-- The eigenvalues found for a symmetric matrix have the sum and the product they should have. -/
def Eigen (env : Env K) (a b d : K) : Prop :=
  (env.eig (a, b, b, d)).1 + (env.eig (a, b, b, d)).2 = a + d ∧ (env.eig (a, b, b, d)).1 * (env.eig (a, b, b, d)).2 = a * d - b * b

/-- The mean of four samples. -/
def centre (P : Nat → Nat → Sample K) (i j : Nat) : K × K :=
  (1 / 4 * ((P i j).x + (P (i + 1) j).x + (P i (j + 1)).x + (P (i + 1) (j + 1)).x),
    1 / 4 * ((P i j).y + (P (i + 1) j).y + (P i (j + 1)).y + (P (i + 1) (j + 1)).y))

/-- The outer product of the segments from `o` to `p` and from `a` to `b`. -/
def outer (o p a b : K × K) : K := (p.1 - o.1) * (b.2 - a.2) - (p.2 - o.2) * (b.1 - a.1)

/-- The place of a sample. -/
def Sample.at (p : Sample K) : K × K := (p.x, p.y)

/-- The quadrilaterals made by two neighbouring samples and the centres beside them have an area, and so have the triangles around
each inner sample together. -/
structure Spread (n1 n2 : Nat) (P : Nat → Nat → Sample K) : Prop where
  rows : ∀ i j, i + 1 < n1 → 1 ≤ j → j + 1 < n2 → outer (P i j).at (P (i + 1) j).at (centre P i (j - 1)) (centre P i j) ≠ 0
  cols : ∀ i j, 1 ≤ i → i + 1 < n1 → j + 1 < n2 → outer (P i j).at (P i (j + 1)).at (centre P i j) (centre P (i - 1) j) ≠ 0
  around : ∀ i j, 1 ≤ i → i + 1 < n1 → 1 ≤ j → j + 1 < n2 →
    |outer (P i j).at (centre P i (j - 1)) (P i j).at (centre P i j)| + |outer (P i j).at (centre P (i - 1) (j - 1)) (P i j).at (centre P (i - 1) j)| +
      |outer (P i j).at (centre P i j) (P i j).at (centre P (i - 1) j)| +
      |outer (P i j).at (centre P i (j - 1)) (P i j).at (centre P (i - 1) (j - 1))| ≠ 0

end Verif.Ridge
