import Verif.RoundGrid.Model

/-!
# What a circular or graded grid has to be
-/
namespace Verif.RoundGrid

/-- The node in row `n` and column `m` of a grid. -/
def node (g : List (List Pt)) (n m : ℕ) : Option Pt := (g[n]?).bind (·[m]?)

/-- Parameters with fractions of at most one, maximum sizes that are not zero, and numbers of rows
and columns to which one can be added. -/
structure Sensible (p : Params) : Prop where
  accepted : Accepted p
  rows : p.rows + 1 < 2 ^ 31
  cols : p.cols + 1 < 2 ^ 31
  fracRows : p.fracRows ≤ 1
  fracCols : p.fracCols ≤ 1
  maxRows : 0 < p.maxRows
  maxCols : 0 < p.maxCols

/-- The angle of the grid in radians. -/
noncomputable def turn (p : Params) : ℝ := p.angle * (Real.pi / 180)

/-- The square of the distance from the origin of the grid. -/
noncomputable def fromOrigin2 (p : Params) (q : Pt) : ℝ :=
  (q.x - p.originX) ^ 2 + (q.y - p.originY) ^ 2

/-- The grid has its nodes at `origin + X m (cos φ, sin φ) + Y n (-sin φ, cos φ)`. -/
def Placed (p : Params) (g : List (List Pt)) (X Y : ℕ → ℝ) : Prop :=
  ∀ n m q, node g n m = some q →
    q.x = p.originX + X m * Real.cos (turn p) - Y n * Real.sin (turn p) ∧
    q.y = p.originY + X m * Real.sin (turn p) + Y n * Real.cos (turn p)

/-- The grid has its nodes on circles round the origin, `R n` the radius of row `n`, and `T m` the
angle of column `m`. -/
def Round (p : Params) (g : List (List Pt)) (R T : ℕ → ℝ) : Prop :=
  ∀ n m q, node g n m = some q →
    q.x = p.originX + R n * Real.cos (T m) ∧ q.y = p.originY + R n * Real.sin (T m)

end Verif.RoundGrid
