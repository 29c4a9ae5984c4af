import Verif.Metrics.Model
import Verif.Curvi.IndexLemmas
/-!
# Specification: smoothness and curvature of a curvilinear grid
-/
namespace Verif.Metrics
open Verif.Curvi Verif.CurviLine

/-- The distance of two points. -/
noncomputable def distance (p q : Pt ℝ) : ℝ := √((q.x - p.x) ^ 2 + (q.y - p.y) ^ 2)

/-- Neither coordinate is the missing value. -/
def Set (p : Pt ℝ) : Prop := p.x ≠ -999 ∧ p.y ≠ -999

/-- `v` is how unevenly `b` lies between `a` and `c`: the longer of the two steps over the shorter one, and one if a step
has no length. -/
def Uneven (a b c : Pt ℝ) (v : ℝ) : Prop :=
  (Set a ∧ Set b ∧ Set c ∧
    ((0 < distance a b ∧ 0 < distance b c ∧
        v = max (distance a b) (distance b c) / min (distance a b) (distance b c)) ∨
      ((distance a b = 0 ∨ distance b c = 0) ∧ v = 1))) ∨
  (¬ (Set a ∧ Set b ∧ Set c) ∧ v = -999)

/-- `r` is the table of the values `f` of three nodes in a row, in the direction of the rows (`false`) or across them
(`true`); the missing value where there are no three nodes. -/
structure Table (g : Grid (Pt ℝ)) (across : Bool) (f : Pt ℝ → Pt ℝ → Pt ℝ → ℝ) (r : List ℝ) : Prop where
  size : r.length = g.numN * g.numM
  value : ∀ i j, i < g.numN → j < g.numM → r[i * g.numM + j]? = some (
    if across then
      if 0 < i ∧ i + 1 < g.numN then f (g.node (i - 1) j) (g.node i j) (g.node (i + 1) j) else -999
    else
      if 0 < j ∧ j + 1 < g.numM then f (g.node i (j - 1)) (g.node i j) (g.node i (j + 1)) else -999)

end Verif.Metrics
