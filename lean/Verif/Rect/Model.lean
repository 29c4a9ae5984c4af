import Mathlib.Algebra.Order.Field.Basic
import Mathlib.Algebra.Order.Floor.Ring
import Verif.Curvi.DeleteModel
/-!
# Model: rectangular curvilinear grids

Models `libs/MeshKernel/src/CurvilinearGrid/CurvilinearGridRectangular.cpp` and the three functions of
`libs/MeshKernelApi/include/MeshKernelApi/Utils.hpp:485-541` that call it.

Numbers are elements of an ordered field with a ceiling: rounding, infinities and NaN are left out.  `std::cos` and
`std::sin` of an angle in degrees are parameters; the theorems about them take the real functions.
-/
namespace Verif.Rect
open Verif.Curvi

/-- `Point` -/
structure Pt (K : Type) where
  x : K
  y : K
deriving DecidableEq

variable {K : Type} [Field K] [LinearOrder K]

/-- `IsValid` and `SetInvalid`, `Point.hpp:116-122, 255-259`, without the tolerance of the comparison. -/
instance ptPoint : PointLike (Pt K) := ⟨fun p => !(decide (p.x = -999) || decide (p.y = -999)), ⟨-999, -999⟩, by simp⟩

/-- Cosine and sine of an angle in degrees, and `degToRad` (`Constants.hpp:73`). -/
structure Trig (K : Type) where
  cos : K → K
  sin : K → K
  rad : K

/-- `Projection` -/
inductive Proj
  | cartesian | spherical | sphericalAccurate
deriving DecidableEq

/-- A signed 32 bit number; anything else is undefined. -/
def toInt (z : Int) : Res Int := if -2147483648 ≤ z ∧ z ≤ 2147483647 then .ok z else .ub

/-- `IsEqual`, `NumericFunctions.hpp:44-56`, with the relative tolerance `tol`. -/
def isEqual (tol a b : K) : Bool := decide (a = b) || decide (|a - b| < tol * min |a| |b|)

/-- The constructor, `CurvilinearGridRectangular.cpp:40-46`. -/
def checkProjection (p : Proj) : Res Unit := if p ≠ .cartesian ∧ p ≠ .spherical then .throw else .ok ()

/-- The point `(n, m)`, `CurvilinearGridRectangular.cpp:104-114`. -/
def cartesianPoint (t : Trig K) (ox oy angle dx dy : K) (n m : Nat) : Pt K :=
  ⟨ox + m * (dx * t.cos angle) - n * (dy * t.sin angle), oy + m * (dx * t.sin angle) + n * (dy * t.cos angle)⟩

/-- `ComputeCartesian`, `CurvilinearGridRectangular.cpp:87-118`: the two loops assign every entry of the matrix once.
Called with positive numbers. -/
def computeCartesian (t : Trig K) (cols rows : Int) (ox oy angle dx dy : K) : Res (Grid (Pt K)) := do
  let numM ← toInt (cols + 1)
  let numN ← toInt (rows + 1)
  .ok { rows := numN.toNat, cols := numM.toNat, cell := cartesianPoint t ox oy angle dx dy }

/-- `ComputeLatitudeIncrementWithAdjustment`, `CurvilinearGridRectangular.cpp:167-186`. -/
def nextLatitude (t : Trig K) (dy lat : K) : K :=
  let c := t.cos lat
  let asp := c + (1 - c) * (3 / 10)
  let d := dy * c * asp
  let r := lat + d
  if |r| > 88 ∧ d * t.rad * 6378137 < 2000 then 90 * (if r < 0 then -1 else 1) else r

/-- One row, `CurvilinearGridRectangular.cpp:144-148`. -/
def sphericalRow (t : Trig K) (dy : K) (n : Nat) (c : Nat → Nat → Pt K) : Nat → Nat → Pt K :=
  fun i j => if i = n then ⟨(c n j).x, nextLatitude t dy (c (n - 1) j).y⟩ else c i j

/-- The loop over the rows, `CurvilinearGridRectangular.cpp:141-163`: `k` more rows from row `n` on; the entries and the
number of rows that stay. -/
def sphericalRows (t : Trig K) (tol dy : K) (numM : Nat) : Nat → Nat → (Nat → Nat → Pt K) → (Nat → Nat → Pt K) × Nat
  | 0, n, c => (c, n)
  | k + 1, n, c =>
    let c' := sphericalRow t dy n c
    if (List.range numM).any (fun m => isEqual tol |(c' n m).y| 90) then (c', n + 1)
    else sphericalRows t tol dy numM k (n + 1) c'

/-- `ComputeSpherical`, `CurvilinearGridRectangular.cpp:120-165`. -/
def computeSpherical (t : Trig K) (tol : K) (cols rows : Int) (ox oy angle dx dy : K) : Res (Grid (Pt K)) := do
  let g ← computeCartesian t cols rows ox oy angle dx dy
  let r := sphericalRows t tol dy g.cols (g.rows - 1) 1 g.cell
  .ok { g with rows := r.2, cell := r.1 }

/-- `std::make_unique<CurvilinearGrid>(matrix, projection)`, `CurvilinearGrid.cpp:75-81`. -/
def makeGrid (g : Grid (Pt K)) : Res (Grid (Pt K)) := setGridNodes g g.rows g.cols g.cell

/-- The matrix for the projection and the grid made of it. -/
def matrixFor (p : Proj) (t : Trig K) (tol : K) (cols rows : Int) (ox oy angle dx dy : K) : Res (Grid (Pt K)) :=
  match p with
  | .spherical => do
    let g ← computeSpherical t tol cols rows ox oy angle dx dy
    makeGrid g
  | .cartesian => do
    let g ← computeCartesian t cols rows ox oy angle dx dy
    makeGrid g
  | .sphericalAccurate => .throw

/-- `Compute` with numbers of columns and rows, `CurvilinearGridRectangular.cpp:48-85`. -/
def compute (p : Proj) (t : Trig K) (tol : K) (cols rows : Int) (ox oy angle dx dy : K) : Res (Grid (Pt K)) :=
  if ¬ cols > 0 then .throw
  else if ¬ rows > 0 then .throw
  else if ¬ (-90 < angle ∧ angle < 90) then .throw
  else if ¬ dx > 0 then .throw
  else if ¬ dy > 0 then .throw
  else matrixFor p t tol cols rows ox oy angle dx dy

/-- `CreateRectangularCurvilinearGrid`, `Utils.hpp:485-497`. -/
def createRectangular (p : Proj) (t : Trig K) (tol : K) (cols rows : Int) (ox oy angle dx dy : K) : Res (Grid (Pt K)) := do
  checkProjection p
  compute p t tol cols rows ox oy angle dx dy

/-- The loop of `ComputeNumRows`, `CurvilinearGridRectangular.cpp:208-217`: the number of rounds from `cur` on, with room
for `k` rounds in the counter. -/
def countRows (t : Trig K) (tol dy maxY : K) : Nat → K → Res Int
  | 0, _ => .ub
  | k + 1, cur =>
    if cur < maxY then
      if isEqual tol |nextLatitude t dy cur| 90 then .ok 1
      else do
        let r ← countRows t tol dy maxY k (nextLatitude t dy cur)
        .ok (r + 1)
    else .ok 0

variable [FloorRing K]

/-- `ComputeNumRows`, `CurvilinearGridRectangular.cpp:188-220`. -/
def computeNumRows (p : Proj) (t : Trig K) (tol minY maxY dy : K) : Res Int :=
  if dy > |maxY - minY| then .throw
  else match p with
  | .cartesian => do
    let n ← toInt ⌈|maxY - minY| / dy⌉
    .ok (max n 1)
  | _ => countRows t tol dy maxY 2147483648 minY

/-- `Compute` on an extension, `CurvilinearGridRectangular.cpp:297-341`. -/
def computeExtension (p : Proj) (t : Trig K) (tol ox oy dx dy ux uy : K) : Res (Grid (Pt K)) :=
  if ¬ dx > 0 then .throw
  else if ¬ dy > 0 then .throw
  else do
    let cols ← toInt ⌈(ux - ox) / dx⌉
    if cols ≤ 0 then .throw
    else do
      let rows ← computeNumRows p t tol oy uy dy
      matrixFor p t tol cols rows ox oy 0 dx dy

/-- `CreateRectangularCurvilinearGridOnExtension`, `Utils.hpp:525-541`. -/
def createOnExtension (p : Proj) (t : Trig K) (tol ox oy angle dx dy ux uy : K) : Res (Grid (Pt K)) := do
  checkProjection p
  if !isEqual tol angle 0 then .throw
  else computeExtension p t tol ox oy dx dy ux uy

/-- `BoundingBox` -/
structure Box (K : Type) where
  lo : Pt K
  hi : Pt K

/-- `Rotate`, `Point.hpp:231-242`. -/
def rotate (t : Trig K) (p : Pt K) (angle : K) (r : Pt K) : Pt K :=
  ⟨((p.x - r.x) * t.cos angle - (p.y - r.y) * t.sin angle) + r.x, ((p.x - r.x) * t.sin angle + (p.y - r.y) * t.cos angle) + r.y⟩

/-- Half the side of the square, `CurvilinearGridRectangular.cpp:250`. -/
def halfSide (b : Box K) : K := max (b.hi.x - b.lo.x) (b.hi.y - b.lo.y)

/-- `MassCentre`, `BoundingBox.hpp:124`. -/
def centre (b : Box K) : Pt K := ⟨(b.lo.x + b.hi.x) * (1 / 2), (b.lo.y + b.hi.y) * (1 / 2)⟩

/-- The matrix before the nodes outside the polygon are dropped, `CurvilinearGridRectangular.cpp:246-276` and
`:282-289`, for a polygon with bounding box `b`. -/
def polygonMatrix (p : Proj) (t : Trig K) (tol angle dx dy : K) (b : Box K) : Res (Grid (Pt K)) := do
  let c := centre b
  let s := halfSide b
  let ll : Pt K := ⟨c.x - s, c.y - s⟩
  let ur : Pt K := ⟨c.x + s, c.y + s⟩
  let n ← toInt ⌈|ur.x - ll.x| / dx⌉
  let rows ← computeNumRows p t tol ll.y ur.y dy
  let o := rotate t ll angle c
  matrixFor p t tol (max n 1) rows o.x o.y angle dx dy

/-- `Compute` in a polygon, `CurvilinearGridRectangular.cpp:222-295`: `b` is the bounding box of the polygon, `inside`
tells if a point is in it; `none` if there is no polygon.  The projection of the polygon is that of the grid
(`Utils.hpp:512`). -/
def computePolygon (p : Proj) (t : Trig K) (tol angle dx dy : K) (poly : Option (Box K × (Pt K → Bool))) : Res (Grid (Pt K)) :=
  if ¬ (-90 < angle ∧ angle < 90) then .throw
  else if ¬ dx > 0 then .throw
  else if ¬ dy > 0 then .throw
  else match poly with
  | none => .throw
  | some q => do
    let g ← polygonMatrix p t tol angle dx dy q.1
    deleteOutside q.2 g

/-- `CreateRectangularCurvilinearGridFromPolygons`, `Utils.hpp:504-519`. -/
def createFromPolygon (p : Proj) (t : Trig K) (tol angle dx dy : K) (poly : Option (Box K × (Pt K → Bool))) : Res (Grid (Pt K)) := do
  checkProjection p
  computePolygon p t tol angle dx dy poly

end Verif.Rect
