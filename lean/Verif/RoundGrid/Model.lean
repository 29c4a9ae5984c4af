import Verif.Basic
import Mathlib.Analysis.SpecialFunctions.Pow.Real
import Mathlib.Analysis.SpecialFunctions.Trigonometric.Basic

/-!
# Making a circular or a graded rectangular grid

`libs/MeshKernel/src/CurvilinearGrid/CurvilinearGridGenerateCircularGrid.cpp`, called from
`mkernel_curvilinear_compute_circular_grid` (`MeshKernel.cpp:4272-4298`).

Doubles are real numbers here, so rounding and overflow of doubles are left out.  Infinity is kept
where `std::pow` or a division by zero gives it: a list of values is `none` when one of the values
computed is not finite.  A NaN among the parameters is left out.  Converting a double that does not
fit to a whole number, and a signed overflow, are undefined behaviour (`Res.ub`).
-/
namespace Verif.RoundGrid

/-- A point of the plane. -/
structure Pt where
  x : ℝ
  y : ℝ

/-- `MakeGridParameters` (`Parameters.hpp:37-82`); the upper right corner is not used here. -/
structure Params where
  cols : ℤ
  rows : ℤ
  angle : ℝ
  originX : ℝ
  originY : ℝ
  blockX : ℝ
  blockY : ℝ
  radius : ℝ
  fracCols : ℝ
  fracRows : ℝ
  maxCols : ℝ
  maxRows : ℝ

/-- `CheckMakeGridParameters` (`Parameters.hpp:84-107`); the checks that values are finite hold for
real numbers. -/
def Accepted (p : Params) : Prop :=
  0 < p.cols ∧ 0 < p.rows ∧ (-90 ≤ p.angle ∧ p.angle ≤ 90) ∧ 0 < p.blockX ∧ 0 < p.blockY ∧
  0 ≤ p.radius ∧ 0 ≤ p.fracCols ∧ 0 ≤ p.fracRows ∧ 0 ≤ p.maxCols ∧ 0 ≤ p.maxRows

/-- `std::pow` for a base that is not negative: `none` is infinity. -/
noncomputable def cpow : Option ℝ → ℝ → Option ℝ
  | some b, e => if b = 0 ∧ e < 0 then none else some (b ^ e)
  | none, e => if 0 < e then none else if e = 0 then some 1 else some 0

/-- `std::pow(maximum, 1.0 / cutoff)` (`CurvilinearGridGenerateCircularGrid.cpp:36`, `:92`, `:157`);
for a cutoff of zero the exponent is infinite. -/
noncomputable def grading (mx : ℝ) (c : ℤ) : Option ℝ :=
  if c = 0 then (if 1 < mx then none else some 0) else cpow (some mx) (1 / (c : ℝ))

/-- `uniformElementCount` of `ComputeXValues` and `ComputeYValues`, with `int`s
(`CurvilinearGridGenerateCircularGrid.cpp:32-34`, `:88-90`). -/
noncomputable def uniformInt (size : ℕ) (f : ℝ) : Res ℤ :=
  let c := ⌊(size : ℝ) * f⌋₊
  if c < 2 ^ 31 then .ok ((c : ℤ) + Int.tmod ((size : ℤ) - 1 - c) 2) else .ub

/-- `uniformCutoffIndex` with `int`s (`CurvilinearGridGenerateCircularGrid.cpp:35`, `:91`). -/
def cutoffInt (size : ℕ) (u : ℤ) : ℤ := Int.tdiv ((size : ℤ) - u) 2 + 1

/-- `uniformElementCount` of `ComputeRadiusValues`, with 32 bit unsigned numbers
(`CurvilinearGridGenerateCircularGrid.cpp:133`, `:153-154`). -/
noncomputable def uniformUInt (size : ℕ) (f : ℝ) : Res ℕ :=
  let c := ⌊(size : ℝ) * f⌋₊
  if c < 2 ^ 32 then .ok ((c + (size - 1 + 2 ^ 32 - c) % 2 ^ 32 % 2) % 2 ^ 32) else .ub

/-- `uniformCutoffIndex` of `ComputeRadiusValues` (`CurvilinearGridGenerateCircularGrid.cpp:155`). -/
def cutoffUInt (size u : ℕ) : ℕ := (size + 2 ^ 32 - u) % 2 ^ 32 / 2 + 1

/-- The loops that add a step and store the value (`CurvilinearGridGenerateCircularGrid.cpp:60-64`,
`:95-99`, `:159-163`): `k` values from index `m` on; `none` when a step is infinite. -/
noncomputable def accum (d : ℕ → Option ℝ) : ℕ → ℕ → ℝ → Option (List ℝ)
  | 0, _, _ => some []
  | k + 1, m, x =>
    match d m with
    | none => none
    | some s =>
      match accum d k (m + 1) (x + s) with
      | none => none
      | some l => some ((x + s) :: l)

/-- `computeDeltaX` (`CurvilinearGridGenerateCircularGrid.cpp:40-58`). -/
noncomputable def stepX (block : ℝ) (g : Option ℝ) (u c : ℤ) (m : ℕ) : Option ℝ :=
  if (m : ℤ) < c then (cpow g ((c - m : ℤ) : ℝ)).map (block * ·)
  else if (m : ℤ) < c + u then some block
  else (cpow g (((m : ℤ) + 1 - c - u : ℤ) : ℝ)).map (block * ·)

/-- `ComputeXValues` (`CurvilinearGridGenerateCircularGrid.cpp:14-68`). -/
noncomputable def xValues (size : ℕ) (block f mx : ℝ) : Res (Option (List ℝ)) :=
  open Classical in
  if f = 1 ∨ mx = 1 then .ok (some ((List.range size).map fun m : ℕ => block * (m : ℝ)))
  else
    (uniformInt size f).bind fun u =>
      let c := cutoffInt size u
      let g := grading mx c
      .ok (match cpow g (c : ℝ) with
        | none => none
        | some s => accum (stepX block g u c) size 0 (-block * s))

/-- The step in the loop of `ComputeYValues` (`CurvilinearGridGenerateCircularGrid.cpp:97`). -/
noncomputable def stepY (block : ℝ) (g : Option ℝ) (u : ℤ) (n : ℕ) : Option ℝ :=
  if (n : ℤ) < u then some block else (cpow g (((n : ℤ) + 1 - u : ℤ) : ℝ)).map (block * ·)

/-- `ComputeYValues` (`CurvilinearGridGenerateCircularGrid.cpp:70-103`). -/
noncomputable def yValues (size : ℕ) (block f mx : ℝ) : Res (Option (List ℝ)) :=
  open Classical in
  if f = 1 ∨ mx = 1 then .ok (some ((List.range size).map fun n : ℕ => block * (n : ℝ)))
  else
    (uniformInt size f).bind fun u =>
      let g := grading mx (cutoffInt size u)
      .ok (match cpow g ((1 - u : ℤ) : ℝ) with
        | none => none
        | some s => accum (stepY block g u) size 0 (-block * s))

/-- The loop for regular radii, which stores before it adds
(`CurvilinearGridGenerateCircularGrid.cpp:141-147`). -/
noncomputable def regularRadii (block : ℝ) : ℕ → ℝ → List ℝ
  | 0, _ => []
  | k + 1, r => r :: regularRadii block k (r + block)

/-- The step in the loop for graded radii (`CurvilinearGridGenerateCircularGrid.cpp:161`). -/
noncomputable def stepR (block : ℝ) (g : Option ℝ) (u n : ℕ) : Option ℝ :=
  if n < u then some block else (cpow g ((n - u : ℕ) : ℝ)).map (block * ·)

/-- `ComputeRadiusValues` (`CurvilinearGridGenerateCircularGrid.cpp:131-167`). -/
noncomputable def radiusValues (size : ℕ) (r0 block f mx : ℝ) : Res (Option (List ℝ)) :=
  open Classical in
  if f = 1 ∨ mx = 1 then .ok (some (regularRadii block size r0))
  else
    (uniformUInt size f).bind fun u =>
      .ok (accum (stepR block (grading mx (cutoffUInt size u)) u) size 0 r0)

/-- `deltaTheta` of `ComputeThetaValues` (`CurvilinearGridGenerateCircularGrid.cpp:174-180`). -/
noncomputable def deltaTheta (size : ℕ) (block radius : ℝ) : ℝ :=
  if block / radius * ((size - 1 : ℕ) : ℝ) > 2 * Real.pi then 2 * Real.pi / ((size - 1 : ℕ) : ℝ)
  else block / radius

/-- `ComputeThetaValues` (`CurvilinearGridGenerateCircularGrid.cpp:169-191`). -/
noncomputable def thetaValues (size : ℕ) (block radius angle : ℝ) : List ℝ :=
  (List.range size).map fun m : ℕ =>
    angle * (Real.pi / 180) + 0.5 * Real.pi - (m : ℝ) * deltaTheta size block radius

/-- `GenerateGradedRectangularGrid` (`CurvilinearGridGenerateCircularGrid.cpp:105-129`). -/
noncomputable def rectangular (p : Params) (nr nc : ℕ) : Res (Option (List (List Pt))) :=
  (xValues nc p.blockX p.fracCols p.maxCols).bind fun xs =>
    (yValues nr p.blockY p.fracRows p.maxRows).bind fun ys =>
      .ok (match xs, ys with
        | some xs, some ys =>
          let c := Real.cos (p.angle * (Real.pi / 180))
          let s := Real.sin (p.angle * (Real.pi / 180))
          some (ys.map fun y => xs.map fun x =>
            ⟨p.originX + x * c - y * s, p.originY + x * s + y * c⟩)
        | _, _ => none)

/-- `GenerateCircularGrid` (`CurvilinearGridGenerateCircularGrid.cpp:193-222`). -/
noncomputable def circular (p : Params) (nr nc : ℕ) : Res (Option (List (List Pt))) :=
  (radiusValues nr p.radius p.blockY p.fracRows p.maxRows).bind fun rs =>
    .ok (match rs with
      | some rs =>
        some (rs.map fun r => (thetaValues nc p.blockX p.radius p.angle).map fun t =>
          ⟨p.originX + r * Real.cos t, p.originY + r * Real.sin t⟩)
      | none => none)

/-- `Compute` and `GenerateGridPoints` (`CurvilinearGridGenerateCircularGrid.cpp:8-12`,
`:224-234`).  `num_rows + 1` and `num_columns + 1` are sums of `int`s.  Running out of memory is
left out. -/
noncomputable def compute (p : Params) : Res (Option (List (List Pt))) :=
  open Classical in
  if ¬ Accepted p then .throw
  else if p.rows + 1 < 2 ^ 31 ∧ p.cols + 1 < 2 ^ 31 then
    if p.radius = 0 then rectangular p (p.rows + 1).toNat (p.cols + 1).toNat
    else circular p (p.rows + 1).toNat (p.cols + 1).toNat
  else .ub

end Verif.RoundGrid
