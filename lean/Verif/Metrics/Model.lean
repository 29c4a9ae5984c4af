import Verif.CurviLine.Model
import Mathlib.Analysis.Real.Sqrt
/-!
# Model: smoothness and curvature of a curvilinear grid

Models `CurvilinearGridSmoothness.cpp`, `CurvilinearGridCurvature.cpp` and the two functions of the interface that return
them (`MeshKernel.cpp:4026-4092`).  Coordinates are real numbers; `-999` marks a missing one, as in the code.
-/
namespace Verif.Metrics
open Verif.Curvi Verif.CurviLine

/-- Real numbers are compared. -/
noncomputable local instance : DecidableEq ℝ := Classical.decEq ℝ

/-- `missing::doubleValue`, `Constants.hpp:56`. -/
def missingD : ℝ := -999

/-- `lengthSquared10`, `CurvilinearGridSmoothness.cpp:74-81`. -/
def squared (p q : Pt ℝ) : ℝ := (q.x - p.x) * (q.x - p.x) + (q.y - p.y) * (q.y - p.y)

/-- The inversion of a ratio below one, `CurvilinearGridSmoothness.cpp:87-90`. -/
noncomputable def atLeastOne (s : ℝ) : ℝ := if s < 1 then 1 / s else s

/-- `ComputeNodeSmoothness`, `CurvilinearGridSmoothness.cpp:68-99`. -/
noncomputable def nodeSmoothness (p0 p1 p2 : Pt ℝ) : ℝ :=
  if valid p0 && valid p1 && valid p2 then
    if squared p0 p1 ≠ 0 ∧ squared p1 p2 ≠ 0 then atLeastOne (√(squared p1 p2 / squared p0 p1))
    else 1
  else missingD

/-- `area2`, `CurvilinearGridCurvature.cpp:80`. -/
def area2 (p0 p1 p2 : Pt ℝ) : ℝ := (p1.x - p0.x) * (p2.y - p1.y) - (p1.y - p0.y) * (p2.x - p1.x)

/-- `radius` before the test for zero, `CurvilinearGridCurvature.cpp:81-87`. -/
noncomputable def rawRadius (p0 p1 p2 : Pt ℝ) : ℝ :=
  if area2 p0 p1 p2 ≠ 0 then
    √(squared p0 p1) * |((p2.x - p1.x) * (p2.x - p0.x) + (p2.y - p1.y) * (p2.y - p0.y)) / area2 p0 p1 p2|
  else 999999

/-- The test for zero, `CurvilinearGridCurvature.cpp:89-92`. -/
noncomputable def notZero (r : ℝ) : ℝ := if r = 0 then 999999 else r

/-- `ComputeNodeCurvature`, `CurvilinearGridCurvature.cpp:64-98`. -/
noncomputable def nodeCurvature (p0 p1 p2 : Pt ℝ) : ℝ :=
  if valid p0 && valid p1 && valid p2 then 1000 * |1 / notZero (rawRadius p0 p1 p2)|
  else missingD

/-- A number minus one in 32 bits: `grid.NumN() - 1`. -/
def pred32 (n : Nat) : Nat := u32 (n + 4294967295)

/-- One value, `CurvilinearGridSmoothness.cpp:48` and `CurvilinearGridCurvature.cpp:44`. -/
def alongN (f : Pt ℝ → Pt ℝ → Pt ℝ → ℝ) (g : Grid (Pt ℝ)) (i j : Nat) (c : Grid ℝ) : Res (Grid ℝ) := do
  let a ← getNode g (i - 1) j
  let b ← getNode g i j
  let d ← getNode g (i + 1) j
  setNode c i j (f a b d)

/-- One value, `CurvilinearGridSmoothness.cpp:58` and `CurvilinearGridCurvature.cpp:54`. -/
def alongM (f : Pt ℝ → Pt ℝ → Pt ℝ → ℝ) (g : Grid (Pt ℝ)) (i j : Nat) (c : Grid ℝ) : Res (Grid ℝ) := do
  let a ← getNode g i (j - 1)
  let b ← getNode g i j
  let d ← getNode g i (j + 1)
  setNode c i j (f a b d)

/-- `CurvilinearDirection`, `Definitions.hpp:90-94`. -/
inductive Dir where
  | m
  | n
  deriving DecidableEq

/-- `ResizeAndFillMatrix` without `preserve`, `LinearAlgebra.hpp:67-107`. -/
def filled (rows cols : Nat) : Grid ℝ := { rows := rows, cols := cols, cell := fun _ _ => missingD }

/-- `Compute`, `CurvilinearGridSmoothness.cpp:38-66` and `CurvilinearGridCurvature.cpp:34-62`; `f` is the value at one
node. -/
def compute (f : Pt ℝ → Pt ℝ → Pt ℝ → ℝ) (g : Grid (Pt ℝ)) : Dir → Res (Grid ℝ)
  | .n => forRange 1 (pred32 g.numN) (fun i => forRange 0 g.numM (alongN f g i)) (filled g.numN g.numM)
  | .m => forRange 0 g.numN (fun i => forRange 1 (pred32 g.numM) (alongM f g i)) (filled g.numN g.numM)

/-- The entries of a matrix in storage order, as they are copied to the array of the caller, `MeshKernel.cpp:4051`. -/
def entries (c : Grid ℝ) : List ℝ := (List.range (c.rows * c.cols)).map fun k => c.cell (k / c.cols) (k % c.cols)

/-- `GetCurvilinearDirectionValue`, `Definitions.cpp:68-85`. -/
def direction (d : Int) : Res Dir :=
  if d = 0 then .ok .m
  else if d = 1 then .ok .n
  else .throw

/-- `mkernel_curvilinear_compute_smoothness`, `MeshKernel.cpp:4060-4092`: what is written to the array of the caller. -/
noncomputable def computeSmoothness (g : Grid (Pt ℝ)) (d : Int) : Res (List ℝ) := do
  let e ← direction d
  let c ← compute nodeSmoothness g e
  .ok (entries c)

/-- `mkernel_curvilinear_compute_curvature`, `MeshKernel.cpp:4026-4058`. -/
noncomputable def computeCurvature (g : Grid (Pt ℝ)) (d : Int) : Res (List ℝ) := do
  let e ← direction d
  let c ← compute nodeCurvature g e
  .ok (entries c)

end Verif.Metrics
