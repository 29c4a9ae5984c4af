import Verif.Curvi.EditModel
import Mathlib.Algebra.Order.Field.Basic
/-!
# Curvilinear grids: shifting, attracting and mirroring a grid line

Models `CurvilinearGridLine.cpp`, `CurvilinearGridAlgorithm.cpp`, `CurvilinearGridLineAttractionRepulsion.cpp`,
`CurvilinearGridLineShift.cpp`, `CurvilinearGridLineMirror.cpp` and the parts of `CurvilinearGrid.cpp` they use.

Coordinates are elements of an ordered field `K`; `-999` marks a missing coordinate, as in the code, so that what
arithmetic makes of missing coordinates is part of the model. The distance of two points and the smoothing factor
`(1 + cos(π d / m)) / 2` are parameters (`Geo`); `Spec.lean` gives their values over the reals. The spatial search that
turns a point into a node index is left out: the operations take the index it found.
-/
namespace Verif.CurviLine
open Verif.Curvi

/-- `Point`, `Point.hpp:40-44`. -/
structure Pt (K : Type) where
  x : K
  y : K
  deriving DecidableEq

section
variable {K : Type} [Field K] [DecidableEq K]

/-- `IsValid`, `Point.hpp:116-122`, and the invalid point, `Point.hpp:47-51`. The tolerance of the comparison is left
out. -/
instance : PointLike (Pt K) where
  valid p := decide (p.x ≠ -999) && decide (p.y ≠ -999)
  inv := ⟨-999, -999⟩
  valid_inv := by simp

/-- `operator+`, `Point.hpp:346-349`. -/
def add (p q : Pt K) : Pt K := ⟨p.x + q.x, p.y + q.y⟩

/-- `operator-`, `Point.hpp:366-369`. -/
def sub (p q : Pt K) : Pt K := ⟨p.x - q.x, p.y - q.y⟩

/-- `operator*` with a number, `Point.hpp:396-399`. -/
def scale (p : Pt K) (c : K) : Pt K := ⟨p.x * c, p.y * c⟩

end

variable {K : Type} [Field K] [LinearOrder K]

/-- The two real functions the operations use: `ComputeDistance` and `(1 + cos(π d / m)) / 2`. -/
structure Geo (K : Type) where
  dist : Pt K → Pt K → K
  bell : Nat → Nat → K

/-! ## Grid lines -/

/-- The end nodes of a line, `CurvilinearGridLine.hpp:72-73`. A node is a pair `(n, m)`. -/
structure Line where
  first : Nat × Nat
  last : Nat × Nat
  deriving DecidableEq

/-- `IsNGridLine`: the line runs in the n-direction, `CurvilinearGridLine.cpp:44`. -/
def Line.alongN (l : Line) : Bool := decide (l.first.2 = l.last.2)

/-- `m_startCoordinate`, `CurvilinearGridLine.cpp:45`. -/
def Line.start (l : Line) : Nat := if l.alongN then l.first.1 else l.first.2

/-- `m_endCoordinate`, `CurvilinearGridLine.cpp:46`. -/
def Line.stop (l : Line) : Nat := if l.alongN then l.last.1 else l.last.2

/-- `m_constantCoordinate`, `CurvilinearGridLine.cpp:47`. -/
def Line.const (l : Line) : Nat := if l.alongN then l.first.2 else l.first.1

/-- The constructor, `CurvilinearGridLine.cpp:35-48`. -/
def makeLine (a b : Nat × Nat) : Res Line := if a = b then .throw else .ok ⟨a, b⟩

/-- `IsNodeOnLine`, `CurvilinearGridLine.cpp:50-64`. -/
def Line.has (l : Line) (node : Nat × Nat) : Bool :=
  (List.range' l.start (l.stop + 1 - l.start)).any fun i =>
    (!l.alongN && decide (node.2 = i) && decide (node.1 = l.const)) ||
      (l.alongN && decide (node.1 = i) && decide (node.2 = l.const))

/-- `GetNodeIndexFromCoordinate`, `CurvilinearGridLine.cpp:66-72`. -/
def Line.nodeAt (l : Line) (c : Nat) : Nat × Nat := if l.alongN then (c, l.const) else (l.const, c)

/-- The crossing test of `SetLine`, `CurvilinearGridAlgorithm.cpp:78-87`. -/
def crosses (old new : Line) : Bool :=
  (List.range' old.start (old.stop + 1 - old.start)).any fun i =>
    (List.range' new.start (new.stop + 1 - new.start)).any fun j => decide (j = old.const) && decide (i = new.const)

/-- `SetLine`, `CurvilinearGridAlgorithm.cpp:56-92`, for the two nodes the search found. -/
def setLine {P : Type} (g : Grid P) (lines : List Line) (a b : Nat × Nat) : Res (List Line) := do
  let r ← blockFromCorners g a b
  if r.1 = r.2 then .throw
  else if ¬ (r.1.1 = r.2.1 ∨ r.1.2 = r.2.2) then .throw
  else do
    let l ← makeLine r.1 r.2
    if lines.any (fun o => crosses o l) then .throw else .ok (lines ++ [l])

/-! ## Smoothing factors, distances and directions -/

/-- One factor of `ComputeDirectionalSmoothingFactors`, `CurvilinearGrid.cpp:946-950` and `953-955`: `x` is the
coordinate of the node across the line, `c` that of the line, `lo` and `up` those of the zone. The mixed factor is not
used by these operations. The differences are those of unsigned numbers; they are only used where they do not wrap. -/
def factor (geo : Geo K) (x c lo up : Nat) : K :=
  let delta := if x > c then x - c else c - x
  let maxDelta := if x > c then up - c else c - lo
  if maxDelta = 0 then 1 else geo.bell delta maxDelta

/-- The factor an operation takes: in the m-direction for a line along n and the other way around,
`CurvilinearGridLineShift.cpp:134-142`. -/
def lineFactor (geo : Geo K) (l : Line) (lo up : Nat × Nat) (n m : Nat) : K :=
  if l.alongN then factor geo m l.first.2 lo.2 up.2 else factor geo n l.first.1 lo.1 up.1

/-- A neighbour if it exists and is valid, otherwise the node itself, `CurvilinearGrid.cpp:1014-1023`. -/
def neighbour (g : Grid (Pt K)) (ok : Bool) (n m : Nat) (c : Pt K) : Res (Pt K) :=
  if ok then do
    let p ← getNode g n m
    .ok (if valid p then p else c)
  else .ok c

/-- The formulas of `TransformDisplacement`, `CurvilinearGrid.cpp:1025-1039`. -/
def rotateInto (geo : Geo K) (v right left : Pt K) (isLocal : Bool) : Pt K :=
  let h := sub right left
  let d := geo.dist right left
  if d > 0 then
    if isLocal then ⟨(v.x * h.x + v.y * h.y) / d, (v.y * h.x - v.x * h.y) / d⟩
    else ⟨(v.x * h.x - v.y * h.y) / d, (v.x * h.y + v.y * h.x) / d⟩
  else ⟨0, 0⟩

/-- `TransformDisplacement`, `CurvilinearGrid.cpp:1012-1040`. -/
def transform (geo : Geo K) (g : Grid (Pt K)) (v : Pt K) (n m : Nat) (isLocal : Bool) : Res (Pt K) := do
  let c ← getNode g n m
  let right ← neighbour g (decide (n + 1 < g.numN)) (n + 1) m c
  let left ← neighbour g (decide (n > 0)) (n - 1) m c
  .ok (rotateInto geo v right left isLocal)

/-- The distance to a neighbour and how many neighbours that is, `CurvilinearGrid.cpp:979-988` and `996-1005`. -/
def sideDistance (geo : Geo K) (g : Grid (Pt K)) (ok : Bool) (n m n' m' : Nat) : Res (K × K) :=
  if ok then do
    let q ← getNode g n' m'
    if valid q then do
      let p ← getNode g n m
      .ok (geo.dist p q, 1)
    else .ok (0, 0)
  else .ok (0, 0)

/-- `ComputeAverageNodalDistance`, `CurvilinearGrid.cpp:963-1010`. -/
def averageDistance (geo : Geo K) (g : Grid (Pt K)) (alongN : Bool) (n m : Nat) : Res K :=
  if m > g.numM ∨ n > g.numN then .throw
  else do
    let a ← if alongN then sideDistance geo g (decide (n > 0)) n m (n - 1) m else sideDistance geo g (decide (m > 0)) n m n (m - 1)
    let b ← if alongN then sideDistance geo g (decide (n + 1 < g.numN)) n m (n + 1) m
      else sideDistance geo g (decide (m + 1 < g.numM)) n m n (m + 1)
    .ok (if a.2 + b.2 = 0 then 0 else (a.1 + b.1) / (a.2 + b.2))

/-! ## Attraction and repulsion -/

/-- What the copy constructor keeps, `CurvilinearGrid.cpp:42-51`: the nodes but not the offsets (nor the projection). -/
def copyGrid {P : Type} (g : Grid P) : Grid P := ⟨g.rows, g.cols, g.cell, 0, 0, 0, 0⟩

/-- The displacement before it is turned into the direction of the grid,
`CurvilinearGridLineAttractionRepulsion.cpp:93-104`. -/
def pull (geo : Geo K) (l : Line) (lo up : Nat × Nat) (f distance : K) (n m : Nat) : Pt K :=
  let direction : K := if (if l.alongN then m else n) < l.const then 1 else -1
  let size := distance * f * lineFactor geo l lo up n m * direction
  if l.alongN then ⟨0, size⟩ else ⟨size, 0⟩

/-- The body of the loop, `CurvilinearGridLineAttractionRepulsion.cpp:76-110`. -/
def attractNode (geo : Geo K) (orig : Grid (Pt K)) (l : Line) (lo up : Nat × Nat) (f : K) (n m : Nat) (g : Grid (Pt K)) :
    Res (Grid (Pt K)) := do
  let p ← getNode orig n m
  if !valid p then .ok g
  else if l.has (n, m) then .ok g
  else do
    let d ← averageDistance geo orig l.alongN n m
    let v ← transform geo orig (pull geo l lo up f d n m) n m false
    let q ← getNode g n m
    setNode g n m (add q v)

/-- The corners of the region an operation works on, `CurvilinearGridLineAttractionRepulsion.cpp:65-68` and
`CurvilinearGridLineShift.cpp:52-55`. -/
def regionOf (l : Line) (lo up : Nat × Nat) : (Nat × Nat) × (Nat × Nat) :=
  if l.alongN then ((l.start, lo.2), (l.stop, up.2)) else ((lo.1, l.start), (up.1, l.stop))

/-- `Compute`, `CurvilinearGridLineAttractionRepulsion.cpp:46-115`, with the copy made by the constructor
(lines 38-44). -/
def attract (geo : Geo K) (g : Grid (Pt K)) (lines : List Line) (lo up : Nat × Nat) (f : K) :
    Res (Grid (Pt K) × Act (Pt K)) :=
  if g.rows * g.cols = 0 then .throw
  else match lines with
    | [] => .throw
    | l :: _ =>
      if (!l.alongN ∧ lo.1 = up.1) ∨ (l.alongN ∧ lo.2 = up.2) then .throw
      else do
        let r := regionOf l lo up
        let b ← saveBlock g r.1.1 r.1.2 (r.2.1 + 1) (r.2.2 + 1)
        let g' ← forRange r.1.1 (r.2.1 + 1) (fun n => forRange r.1.2 (r.2.2 + 1) (attractNode geo (copyGrid g) l lo up f n)) g
        .ok (g', .block b)

/-- `mkernel_curvilinear_line_attraction_repulsion`, `MeshKernel.cpp:4866-4902`, for the nodes the search found. -/
def apiAttract (geo : Geo K) (g : Grid (Pt K)) (f : K) (a b c d : Nat × Nat) : Res (Grid (Pt K) × Act (Pt K)) := do
  let lines ← setLine g [] a b
  let r ← setBlock g c d
  attract geo g lines r.1 r.2 f

/-! ## Shifting a line -/

/-- How far a node is from its place in the original grid, `CurvilinearGridLineShift.cpp:61-62` and `70-71`. -/
def moved (orig g : Grid (Pt K)) (v : Nat × Nat) : Res (Pt K) := do
  let p ← getNode g v.1 v.2
  let q ← getNode orig v.1 v.2
  .ok (sub p q)

/-- The body of the loop of `TransformGrid`, `CurvilinearGridLineShift.cpp:123-145`, at node `(n, m)`. -/
def carryNode (geo : Geo K) (orig : Grid (Pt K)) (l : Line) (lo up : Nat × Nat) (delta : Pt K) (n m : Nat) (g : Grid (Pt K)) :
    Res (Grid (Pt K)) := do
  let p ← getNode orig n m
  if !valid p then .ok g
  else do
    let v ← transform geo orig (scale delta (lineFactor geo l lo up n m)) n m false
    setNode g n m (add p v)

/-- `TransformGrid`, `CurvilinearGridLineShift.cpp:113-147`. -/
def carry (geo : Geo K) (orig : Grid (Pt K)) (l : Line) (lo up : Nat × Nat) (v : Nat × Nat) (g : Grid (Pt K)) : Res (Grid (Pt K)) := do
  let delta ← moved orig g v
  let d ← transform geo orig delta v.1 v.2 true
  if l.alongN then forRange lo.2 (up.2 + 1) (fun i => carryNode geo orig l lo up d v.1 i) g
  else forRange lo.1 (up.1 + 1) (fun i => carryNode geo orig l lo up d i v.2) g

/-- The body of the inner loop, `CurvilinearGridLineShift.cpp:84-94`: the node at coordinate `j` gets its share of the
moves at `prev` and `i`. -/
def shareNode (geo : Geo K) (orig : Grid (Pt K)) (l : Line) (lo up : Nat × Nat) (prev i : Nat) (prevDelta delta : Pt K) (j : Nat)
    (g : Grid (Pt K)) : Res (Grid (Pt K)) := do
  let v := l.nodeAt j
  let t : K := ((j - prev : Nat) : K) / ((i - prev : Nat) : K)
  let p ← getNode orig v.1 v.2
  let g' ← setNode g v.1 v.2 (add (add p (scale prevDelta (1 - t))) (scale delta t))
  carry geo orig l lo up v g'

/-- The state of the loop of `Compute`: the grid, `previousCoordinate` and `previousDelta`. -/
structure ShiftState (K : Type) where
  grid : Grid (Pt K)
  prev : Nat
  delta : Pt K

/-- The body of the loop, `CurvilinearGridLineShift.cpp:68-97`; `eps` is 1e-5. -/
def shiftStep (geo : Geo K) (eps : K) (orig : Grid (Pt K)) (l : Line) (lo up : Nat × Nat) (i : Nat) (s : ShiftState K) :
    Res (ShiftState K) := do
  let d ← moved orig s.grid (l.nodeAt i)
  if |d.x| < eps ∧ |d.y| < eps ∧ i ≠ l.stop then .ok s
  else do
    let g ← forRange s.prev ((if i = l.stop then i else i - 1) + 1) (shareNode geo orig l lo up s.prev i s.delta d) s.grid
    .ok ⟨g, i, d⟩

/-- `Compute`, `CurvilinearGridLineShift.cpp:45-101`. -/
def shift (geo : Geo K) (eps : K) (orig g : Grid (Pt K)) (lines : List Line) (lo up : Nat × Nat) :
    Res (Grid (Pt K) × Act (Pt K)) :=
  match lines with
  | [] => .throw
  | l :: _ => do
    let r := regionOf l lo up
    let b ← saveBlock g r.1.1 r.1.2 (r.2.1 + 1) (r.2.2 + 1)
    let d ← moved orig g l.first
    let s ← forRange 1 (l.stop + 1) (shiftStep geo eps orig l lo up) ⟨g, l.start, d⟩
    .ok (s.grid, .block b)

/-- `MoveNode`, `CurvilinearGridLineShift.cpp:149-173`, for the node the search found. -/
def shiftMoveNode (g : Grid (Pt K)) (lines : List Line) (lo up : Nat × Nat) (v : Nat × Nat) (p : Pt K) :
    Res (Grid (Pt K) × Act (Pt K)) :=
  match lines with
  | [] => .throw
  | l :: _ =>
    if (lo.1 = missing ∨ lo.2 = missing) ∧ (up.1 = missing ∨ up.2 = missing) then .throw
    else if !l.has v then .throw
    else moveNode g v.1 v.2 p

end Verif.CurviLine
