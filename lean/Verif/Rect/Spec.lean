import Verif.Rect.Model
import Verif.Curvi.IndexLemmas
import Mathlib.Analysis.SpecialFunctions.Trigonometric.Basic
/-!
# Specification: rectangular grids
-/
namespace Verif.Rect
open Verif.Curvi
variable {K : Type} [Field K] [LinearOrder K]

/-- The vector between two points. -/
def vec (p q : Pt K) : Pt K := ⟨q.x - p.x, q.y - p.y⟩
/-- Scalar product. -/
def dot (u v : Pt K) : K := u.x * v.x + u.y * v.y
/-- Signed area. -/
def cross (u v : Pt K) : K := u.x * v.y - u.y * v.x

/-- A grid of `cols` times `rows` rectangles of size `dx` times `dy` with first node `o`: neighbours along a row are `dx`
apart in the direction of the angle `a`, neighbours along a column are `dy` apart, in the perpendicular direction to the left. -/
structure Rectangles (t : Trig K) (g : Grid (Pt K)) (cols rows : Nat) (o : Pt K) (a dx dy : K) : Prop where
  numM : g.numM = cols + 1
  numN : g.numN = rows + 1
  first : g.node 0 0 = o
  along : ∀ n m, n < g.numN → m + 1 < g.numM → vec (g.node n m) (g.node n (m + 1)) = ⟨dx * t.cos a, dx * t.sin a⟩
  across : ∀ n m, n + 1 < g.numN → m < g.numM →
    dot (vec (g.node n m) (g.node (n + 1) m)) (vec (g.node n m) (g.node (n + 1) m)) = dy ^ 2
  length : ∀ n m, n < g.numN → m + 1 < g.numM →
    dot (vec (g.node n m) (g.node n (m + 1))) (vec (g.node n m) (g.node n (m + 1))) = dx ^ 2
  right : ∀ n m, n + 1 < g.numN → m + 1 < g.numM →
    dot (vec (g.node n m) (g.node n (m + 1))) (vec (g.node n m) (g.node (n + 1) m)) = 0 ∧
    cross (vec (g.node n m) (g.node n (m + 1))) (vec (g.node n m) (g.node (n + 1) m)) = dx * dy

/-- Every point of the box lies in one of the cells of the grid. -/
def Covers (g : Grid (Pt K)) (b : Box K) : Prop :=
  ∀ p : Pt K, b.lo.x ≤ p.x → p.x ≤ b.hi.x → b.lo.y ≤ p.y → p.y ≤ b.hi.y →
    ∃ n m, n + 1 < g.numN ∧ m + 1 < g.numM ∧ ∃ α β : K, (0 ≤ α ∧ α ≤ 1) ∧ (0 ≤ β ∧ β ≤ 1) ∧
      p.x = (g.node n m).x + α * (vec (g.node n m) (g.node n (m + 1))).x + β * (vec (g.node n m) (g.node (n + 1) m)).x ∧
      p.y = (g.node n m).y + α * (vec (g.node n m) (g.node n (m + 1))).y + β * (vec (g.node n m) (g.node (n + 1) m)).y

/-- The real functions. -/
noncomputable def realTrig : Trig ℝ :=
  ⟨fun a => Real.cos (a * (Real.pi / 180)), fun a => Real.sin (a * (Real.pi / 180)), Real.pi / 180⟩

end Verif.Rect
