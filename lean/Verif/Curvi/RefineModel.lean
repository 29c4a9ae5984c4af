import Verif.Curvi.EditModel
/-!
# Curvilinear grids: refinement and de-refinement

Models `CurvilinearGridRefinement.cpp`, `CurvilinearGridFullRefinement.cpp` and `CurvilinearGridDeRefinement.cpp`.

Where the interpolated points between grid nodes lie is arbitrary (parameters `Interp`); that the interpolation returns
the grid nodes themselves at whole parameters, and how the cells are put together, is modelled.
-/
namespace Verif.Curvi
variable {P : Type}

/-- `for` over a list, collecting results. -/
def mapRes {α β : Type} (f : α → Res β) : List α → Res (List β)
  | [] => .ok []
  | a :: l => do
    let b ← f a
    let r ← mapRes f l
    .ok (b :: r)

/-- `GetNodeVectorAtN`, `CurvilinearGrid.hpp:411`, with `MatrixColToSTLVector`, `LinearAlgebra.hpp:476-487`: a column of
the matrix with its hidden nodes. The column is shifted by the offset of the rows. -/
def nodeVectorAtN (g : Grid P) (n : Nat) : Res (List P) :=
  if n + g.sn ≥ g.cols then .throw else .ok ((List.range g.rows).map fun r => g.cell r (n + g.sn))

/-- `GetNodeVectorAtM`, `CurvilinearGrid.hpp:406`, with `MatrixRowToSTLVector`, `LinearAlgebra.hpp:456-467`: a row of
the matrix with its hidden nodes. The row is shifted by the offset of the columns. -/
def nodeVectorAtM (g : Grid P) (m : Nat) : Res (List P) :=
  if m + g.sm ≥ g.rows then .throw else .ok ((List.range g.cols).map fun c => g.cell (m + g.sm) c)

/-- The nodes of the splines, `Splines::Splines(CurvilinearGrid const&)`, `Splines.cpp:43-58`: first the columns, then
the rows. -/
def splineNodes (g : Grid P) : Res (List (List P)) := do
  let a ← mapRes (nodeVectorAtN g) (List.range g.numM)
  let b ← mapRes (nodeVectorAtM g) (List.range g.numN)
  .ok (a ++ b)

/-- Arbitrary positions for the points between the nodes: on the splines (spline, node before, part, number of parts)
and inside a cell (cell, local position). -/
structure Interp (P : Type) where
  side : Nat → Nat → Nat → Nat → P
  inner : Nat → Nat → Nat → Nat → P

/-- `ComputePointOnSplineAtAdimensionalDistance`, `Operations.hpp:497-525`, at `cur + i / ref`: the nodes themselves for
the first and the last part. Dividing by zero parts gives a parameter that is not a number, and converting it to an index
is undefined. -/
def pointOnSpline (I : Interp P) (S : List (List P)) (s cur ref i : Nat) : Res P := do
  let nodes ← vget S s
  if ref = 0 then .ub
  else if i = 0 then vget nodes cur
  else if i = ref then vget nodes (cur + 1)
  else .ok (I.side s cur i ref)

/-- The points on one side of a cell, `CurvilinearGridRefinement.cpp:102-121` and
`CurvilinearGridFullRefinement.cpp:94-110`. -/
def sidePoints (I : Interp P) (S : List (List P)) (s cur ref : Nat) : Res (List P) :=
  mapRes (pointOnSpline I S s cur ref) (List.range (ref + 1))

/-- An entry of the result of `DiscretizeTransfinite`, `Operations.cpp:1278-1472`: the sides as given (the later
assignment to `result(0, m)` and `result(numN, m)` wins at the corners), arbitrary inside. -/
def localPoint (I : Interp P) (cn cm : Nat) (left right bottom upper : List P) (numM numN a b : Nat) : Res P :=
  if a = numN then vget right b
  else if a = 0 then vget left b
  else if b = numM then vget upper a
  else if b = 0 then vget bottom a
  else .ok (I.inner cn cm a b)

/-- `refinedGrid(i, j) = p`: unchecked. -/
def put (R : Grid P) (i j : Nat) (p : P) : Res (Grid P) :=
  if i < R.rows ∧ j < R.cols then .ok { R with cell := upd R.cell i j p } else .ub

/-- Copying the local grid, `CurvilinearGridRefinement.cpp:132-138`, `CurvilinearGridFullRefinement.cpp:67`. -/
def copyLocal (point : Nat → Nat → Res P) (rn rm ln lm : Nat) (R : Grid P) : Res (Grid P) :=
  forRange 0 (ln + 1) (fun a => forRange 0 (lm + 1) (fun b R => do
    let p ← point a b
    put R (rn + a) (rm + b) p)) R

variable [PointLike P]

/-- One cell, `CurvilinearGridRefinement.cpp:95-139` and `CurvilinearGridFullRefinement.cpp:51-68` (with `ValidFace`,
`CurvilinearGridFullRefinement.cpp:84-92`). The code tests the four nodes in another order; all are in range. -/
def refineCell (I : Interp P) (g : Grid P) (S : List (List P)) (ln lm rn rm cn cm : Nat) (R : Grid P) : Res (Grid P) := do
  let v ← areFaceNodesValid g cn cm
  if !v then .ok R else do
    let bottom ← sidePoints I S cm cn ln
    let top ← sidePoints I S (cm + 1) cn ln
    let left ← sidePoints I S (g.numM + cn) cm lm
    let right ← sidePoints I S (g.numM + cn + 1) cm lm
    copyLocal (localPoint I cn cm left right bottom top lm ln) rn rm ln lm R

/-- The loops over the cells, `CurvilinearGridRefinement.cpp:74-143` and `CurvilinearGridFullRefinement.cpp:41-74`, for
given numbers of parts of each row and column of cells. A default constructed point is invalid. -/
def refineCells (I : Interp P) (g : Grid P) (S : List (List P)) (locN locM : Nat → Nat) (maxN maxM : Nat) : Res (Grid P) := do
  let s ← forRange 0 (g.numN - 1) (fun cn s => do
    let t ← forRange 0 (g.numM - 1) (fun cm t => do
      let R ← refineCell I g S (locN cn) (locM cm) s.2 t.2 cn cm t.1
      .ok (R, t.2 + locM cm)) (s.1, 0)
    .ok (t.1, s.2 + locN cn)) ((⟨maxN, maxM, fun _ _ => inv, 0, 0, 0, 0⟩ : Grid P), 0)
  .ok s.1

/-- `localNRefinement`, `CurvilinearGridRefinement.cpp:79-83, 89-93`. -/
def partsOf (lo up ref c : Nat) : Nat := if c ≥ lo ∧ c < up then ref else 1

/-- `CurvilinearGridRefinement::Compute`, `CurvilinearGridRefinement.cpp:45-149`, after the constructor
(`CurvilinearGridRefinement.cpp:37-43`). The sizes are written so that they are right for `ref = 0` too, where
`m_refinement - 1` wraps around. -/
def refine (I : Interp P) (g : Grid P) (lo up : Nat × Nat) (ref : Nat) : Res (Grid P × Act P) := do
  let S ← splineNodes g
  if lo.1 = missing ∨ lo.2 = missing ∨ up.1 = missing ∨ up.2 = missing then .throw
  else if lo.2 ≠ up.2 ∧ lo.1 ≠ up.1 then .throw
  else do
    let R ← refineCells I g S (partsOf lo.1 up.1 ref) (partsOf lo.2 up.2 ref)
      (g.numN + (up.1 - lo.1) * ref - (up.1 - lo.1)) (g.numM + (up.2 - lo.2) * ref - (up.2 - lo.2))
    let g' ← setGridNodes g R.rows R.cols R.cell
    .ok (g', .whole g)

/-- `CurvilinearGridFullRefinement::Compute`, `CurvilinearGridFullRefinement.cpp:5-82`. -/
def fullRefine (I : Interp P) (g : Grid P) (mRef nRef : Nat) : Res (Grid P × Option (Act P)) :=
  if mRef = 0 ∨ nRef = 0 then .throw
  else if mRef = missing ∨ nRef = missing then .throw
  else if mRef = 1 ∧ nRef = 1 then .ok (g, none)
  else do
    let S ← splineNodes g
    let R ← refineCells I g S (fun _ => nRef) (fun _ => mRef) ((g.numN - 1) * nRef + 1) ((g.numM - 1) * mRef + 1)
    let g' ← setGridNodes g R.rows R.cols R.cell
    .ok (g', some (.whole g))

/-- The values the loop counter takes, `CurvilinearGridDeRefinement.cpp:57-64, 79` and `68-75, 77`; `none` when there
are more than `fuel` rounds. -/
def linesKept (num lo up step : Nat) : Nat → Nat → Option (List Nat)
  | 0, i => if i < num then none else some []
  | fuel + 1, i =>
    if i < num then
      (linesKept num lo up step fuel (i + if i ≥ lo ∧ i < up then step else 1)).map (i :: ·)
    else some []

/-- `STLVectorOfVectorsToMatrix`, `LinearAlgebra.hpp:494-502`, for rows of equal length. -/
def matrixOf (rows : List (List P)) : Grid P :=
  ⟨rows.length, (rows.headD []).length, fun i j => ((rows[i]?.getD [])[j]?).getD inv, 0, 0, 0, 0⟩

/-- `CurvilinearGridDeRefinement::Compute`, `CurvilinearGridDeRefinement.cpp:40-86`; `none` if a loop does not end within
the given numbers of rounds. -/
def deRefine (fuel : Nat) (g : Grid P) (lo up : Nat × Nat) : Option (Res (Grid P × Act P)) :=
  if lo.1 = missing ∨ lo.2 = missing ∨ up.1 = missing ∨ up.2 = missing then some .throw
  else
    match linesKept g.numN lo.1 up.1 (if up.1 > lo.1 then up.1 - lo.1 else 1) fuel 0,
      linesKept g.numM lo.2 up.2 (if up.2 > lo.2 then up.2 - lo.2 else 1) fuel 0 with
    | some ns, some ms => some (do
      let rows ← mapRes (fun n => mapRes (fun m => getNode g n m) ms) ns
      let g' ← setGridNodes g (matrixOf rows).rows (matrixOf rows).cols (matrixOf rows).cell
      .ok (g', .whole g))
    | _, _ => none

end Verif.Curvi
