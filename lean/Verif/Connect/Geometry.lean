import Verif.Connect.Model
import Mathlib.Analysis.SpecialFunctions.Pow.Real

/-!
# The test for close edges

`AreEdgesAdjacent` (`ConnectMeshes.cpp:36-100`) for the Cartesian projection, over the real numbers.
-/
namespace Verif.Connect
open Classical

/-- A point. -/
structure Pt where
  x : ℝ
  y : ℝ

/-- `ComputeDistance` (`Operations.cpp:913-921`). -/
noncomputable def len (p q : Pt) : ℝ := Real.sqrt ((q.x - p.x) ^ 2 + (q.y - p.y) ^ 2)

/-- Half the sum of two points (`ConnectMeshes.cpp:64`, `:71`). -/
noncomputable def mid (p q : Pt) : Pt := ⟨(p.x + q.x) / 2, (p.y + q.y) / 2⟩

/-- The distance from `DistanceFromLine` (`Operations.cpp:923-941`); `none` for the missing one. -/
noncomputable def lineDist (m a b : Pt) : Option ℝ :=
  if (b.x - a.x) ^ 2 + (b.y - a.y) ^ 2 = 0 then none
  else
    let t := max (min 1 (((m.x - a.x) * (b.x - a.x) + (m.y - a.y) * (b.y - a.y)) /
      ((b.x - a.x) ^ 2 + (b.y - a.y) ^ 2))) 0
    some (len m ⟨a.x + t * (b.x - a.x), a.y + t * (b.y - a.y)⟩)

/-- `NormalizedInnerProductTwoSegments` (`Operations.cpp:1078-1099`). -/
noncomputable def cosPhi (a b c d : Pt) : ℝ :=
  if (b.x - a.x) ^ 2 + (b.y - a.y) ^ 2 ≤ 0 ∨ (d.x - c.x) ^ 2 + (d.y - c.y) ^ 2 ≤ 0 then -999
  else max (min (((b.x - a.x) * (d.x - c.x) + (b.y - a.y) * (d.y - c.y)) /
    Real.sqrt (((b.x - a.x) ^ 2 + (b.y - a.y) ^ 2) * ((d.x - c.x) ^ 2 + (d.y - c.y) ^ 2))) 1) (-1)

/-- `minimumLength` (`ConnectMeshes.cpp:58-60`). -/
noncomputable def reach (f : ℝ) (pos : Nat → Pt) (e e' : Nat × Nat) : ℝ :=
  f * min (len (pos e.1) (pos e.2)) (len (pos e'.1) (pos e'.2))

/-- The middle of the shorter edge is close to the longer one (`ConnectMeshes.cpp:62-75`). -/
def beside (f : ℝ) (pos : Nat → Pt) (e e' : Nat × Nat) : Prop :=
  ∃ d, (if len (pos e.1) (pos e.2) ≤ len (pos e'.1) (pos e'.2)
      then lineDist (mid (pos e.1) (pos e.2)) (pos e'.1) (pos e'.2)
      else lineDist (mid (pos e'.1) (pos e'.2)) (pos e.1) (pos e.2)) = some d ∧
    d < reach f pos e e'

/-- The end of an edge that is close to a node, the first one if there are two
(`ConnectMeshes.cpp:79-86`, `:88-95`). -/
noncomputable def pick (m : ℝ) (pos : Nat → Pt) (n : Nat) (e' : Nat × Nat) : Nat :=
  if len (pos n) (pos e'.1) < m then e'.1
  else if len (pos n) (pos e'.2) < m then e'.2
  else missing

/-- `AreEdgesAdjacent` (`ConnectMeshes.cpp:36-100`) for two edges.  `same` is the comparison of points
with a tolerance (`Point.hpp:411-414`), and 0.9 is `minimumParallelDeviation`
(`ConnectMeshes.hpp:54`). -/
noncomputable def test (same : Pt → Pt → Prop) (f : ℝ) (pos : Nat → Pt) (e e' : Nat × Nat) :
    Option (Nat × Nat) :=
  if same (pos e.1) (pos e.2) ∨ same (pos e'.1) (pos e'.2) then none
  else if beside f pos e e' ∧ 9 / 10 < |cosPhi (pos e.1) (pos e.2) (pos e'.1) (pos e'.2)| then
    some (pick (reach f pos e e') pos e.1 e', pick (reach f pos e e') pos e.2 e')
  else none

/-- The mesh with this test: `f` is the search fraction of the call. -/
noncomputable def drawn (same : Pt → Pt → Prop) (f : ℝ) (pos : Nat → Pt) (edges : List (Nat × Nat))
    (boundary : List Nat) (across : Nat → List Nat) : Input where
  edges := edges
  boundary := boundary
  adj b c := (edges[b]?).bind fun e => (edges[c]?).bind fun e' => test same f pos e e'
  across := across

end Verif.Connect
