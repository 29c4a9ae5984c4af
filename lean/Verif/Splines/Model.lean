import Verif.Polygons.ParseModel
import Mathlib.Data.Rat.Floor
/-!
# Splines

`SplineAlgorithms::SecondOrderDerivative`, `ComputePointOnSplineAtAdimensionalDistance`, the container
`Splines` and `mkernel_get_splines`.  Coordinates are rational and the arithmetic is exact.
-/
namespace Verif.Splines
open Verif.Polygons (Pt findIndices missingDouble outerSep)

/-! ## Second derivatives -/

/-- The forward loop, `libs/MeshKernel/src/SplineAlgorithms.cpp:43-52`: `d` and `u` are the entries of
`coordinatesDerivatives` and `u` at `index - 1`, the list holds `coordinates[i - 1], …, coordinates[endIndex]`. -/
def forward (d u : ℚ) : List ℚ → List (ℚ × ℚ)
  | a :: b :: c :: rest =>
    let p := d * (1 / 2) + 2
    let d' := -(1 / 2) / p
    let delta := c - b - (b - a)
    let u' := (delta * 6 / 2 - u * (1 / 2)) / p
    (d', u') :: forward d' u' (b :: c :: rest)
  | _ => []

/-- The backward loop, `libs/MeshKernel/src/SplineAlgorithms.cpp:54-58`: the last entry is zero. -/
def backward : List (ℚ × ℚ) → List ℚ
  | [] => [0]
  | (d, u) :: rest => (d * (backward rest).headD 0 + u) :: backward rest

/-- `SecondOrderDerivative` of the coordinates `startIndex` to `endIndex`, `libs/MeshKernel/src/SplineAlgorithms.cpp:37-61`.
For no coordinates `back()` is undefined there; no caller does that. -/
def second : List ℚ → List ℚ
  | [] => []
  | [_] => backward []
  | ys => backward ((0, 0) :: forward 0 0 ys)

/-- The same for points, `libs/MeshKernel/src/SplineAlgorithms.cpp:10-35`: all operations are done for each coordinate. -/
def secondPts (ps : List Pt) : List Pt :=
  (second (ps.map Pt.x)).zipWith Pt.mk (second (ps.map Pt.y))

/-! ## Evaluation -/

/-- The tolerance of the evaluation, `libs/MeshKernel/include/MeshKernel/Operations.hpp:507`. -/
def eps : ℚ := 1 / 100000

/-- The formula of `libs/MeshKernel/include/MeshKernel/Operations.hpp:521-522` for one coordinate. -/
def cubic (y0 y1 m0 m1 a b : ℚ) : ℚ := y0 * a + y1 * b + (m0 * (a ^ 3 - a) + m1 * (b ^ 3 - b)) / 6 * 1

/-- `ComputePointOnSplineAtAdimensionalDistance`, `libs/MeshKernel/include/MeshKernel/Operations.hpp:497-525`. -/
def evaluate (ps ms : List Pt) (t : ℚ) : Res Pt :=
  if t < 0 then .ok ⟨missingDouble, missingDouble⟩
  else
    let low := ⌊t⌋.toNat
    if t - ⌊t⌋ < eps then vget ps low
    else do
      let a := ((low + 1 : Nat) : ℚ) - t
      let b := t - (low : ℚ)
      let p0 ← vget ps low
      let p1 ← vget ps (low + 1)
      let m0 ← vget ms low
      let m1 ← vget ms (low + 1)
      .ok ⟨cubic p0.x p1.x m0.x m1.x a b, cubic p0.y p1.y m0.y m1.y a b⟩

/-! ## The container -/

/-- `Splines`: the nodes and derivatives of all splines; the lengths are not modelled. -/
structure Container where
  nodes : List (List Pt)
  derivatives : List (List Pt)
  deriving DecidableEq, Repr

/-- Loop of `ComputeSplineDerivative`, `libs/MeshKernel/src/Splines.cpp:90-99`. -/
def derivativeLoop (ps : List Pt) : List (Nat × Nat) → List Pt → List Pt
  | [], ds => ds
  | r :: rs, ds =>
    let part := secondPts ((ps.take (r.2 + 1)).drop r.1)
    derivativeLoop ps rs (ds.take r.1 ++ part ++ ds.drop (r.2 + 1))

/-- `ComputeSplineDerivative`, `libs/MeshKernel/src/Splines.cpp:85-102`; entries of separators stay missing. -/
def splineDerivative (ps : List Pt) : List Pt :=
  derivativeLoop ps (findIndices ps 0 ps.length missingDouble) (List.replicate ps.length outerSep)

/-- `AddSpline`, `libs/MeshKernel/src/Splines.cpp:61-83`: nodes `start` to `start + size - 1`. -/
def addSpline (s : Container) (ps : List Pt) (start size : Nat) : Res Container :=
  if size = 0 then .ok s
  else if ps.length < start + size then .ub
  else
    let part := (ps.take (start + size)).drop start
    .ok ⟨s.nodes ++ [part], s.derivatives ++ [splineDerivative part]⟩

/-- `Replace`, `libs/MeshKernel/src/Splines.cpp:109-114`. -/
def replace (s : Container) (i : Nat) (ps : List Pt) : Res Container := do
  let ns ← vset s.nodes i ps
  let ms ← vset s.derivatives i (splineDerivative ps)
  .ok ⟨ns, ms⟩

/-- `DeleteSpline`, `libs/MeshKernel/src/Splines.cpp:116-121`. -/
def deleteSpline (s : Container) (i : Nat) : Res Container :=
  if s.nodes.length ≤ i ∨ s.derivatives.length ≤ i then .ub
  else .ok ⟨s.nodes.eraseIdx i, s.derivatives.eraseIdx i⟩

/-- `SwapSplines`, `libs/MeshKernel/src/Splines.cpp:123-149`. -/
def swapSplines (s : Container) (i j : Nat) : Res Container :=
  if s.nodes.length ≤ i then .throw
  else if s.nodes.length ≤ j then .throw
  else if i = j then .ok s
  else do
    let a ← vget s.nodes i
    let b ← vget s.nodes j
    let n1 ← vset s.nodes i b
    let n2 ← vset n1 j a
    let c ← vget s.derivatives i
    let d ← vget s.derivatives j
    let d1 ← vset s.derivatives i d
    let d2 ← vset d1 j c
    .ok ⟨n2, d2⟩

/-- `Reverse`, `libs/MeshKernel/src/Splines.cpp:151-160`. -/
def reverse (s : Container) (i : Nat) : Res Container :=
  if s.nodes.length ≤ i then .throw
  else do
    let a ← vget s.nodes i
    let n1 ← vset s.nodes i a.reverse
    let c ← vget s.derivatives i
    let d1 ← vset s.derivatives i c.reverse
    .ok ⟨n1, d1⟩

/-- `AddPointInExistingSpline`, `libs/MeshKernel/src/Splines.cpp:162-169`. -/
def addPoint (s : Container) (i : Nat) (p : Pt) : Res Container :=
  if s.nodes.length < i then .throw
  else do
    let a ← vget s.nodes i
    let n1 ← vset s.nodes i (a ++ [p])
    .ok ⟨n1, s.derivatives⟩

/-- `Evaluate`, `libs/MeshKernel/src/Splines.cpp:458-468`. -/
def evaluateAt (s : Container) (i : Nat) (t : ℚ) : Res Pt :=
  if s.nodes.length ≤ i then .throw
  else do
    let a ← vget s.nodes i
    let c ← vget s.derivatives i
    evaluate a c t

/-! ## The interface -/

/-- The inner loop of `mkernel_get_splines`, `libs/MeshKernelApi/src/MeshKernel.cpp:1620-1633`, from `p` on, `k` rounds. -/
def between (ps ms : List Pt) (n count : Nat) : Nat → Nat → Res (List Pt)
  | _, 0 => .ok []
  | p, k + 1 => do
    let q ← evaluate ps ms ((n : ℚ) + (p : ℚ) / ((count : ℚ) + 1))
    if !q.isValid then .ok []
    else do
      let qs ← between ps ms n count (p + 1) k
      .ok (q :: qs)

/-- The loop over the nodes but the last one, `libs/MeshKernelApi/src/MeshKernel.cpp:1614-1634`. -/
def segments (ps ms : List Pt) (count : Nat) : Nat → Nat → Res (List Pt)
  | _, 0 => .ok []
  | n, k + 1 => do
    let p ← vget ps n
    let qs ← between ps ms n count 1 count
    let rs ← segments ps ms count (n + 1) k
    .ok (p :: qs ++ rs)

/-- One spline, `libs/MeshKernelApi/src/MeshKernel.cpp:1610-1639`. -/
def oneSpline (ps : List Pt) (count : Nat) : Res (List Pt) := do
  let rs ← segments ps (secondPts ps) count 0 (ps.length - 1)
  match ps.getLast? with
  | some p => .ok (rs ++ [p])
  | none => .ub

/-- The loop over the splines with separators in between, `libs/MeshKernelApi/src/MeshKernel.cpp:1607-1648`. -/
def allSplines (pts : List Pt) (count : Nat) : List (Nat × Nat) → Res (List Pt)
  | [] => .ok []
  | [r] => oneSpline ((pts.take (r.2 + 1)).drop r.1) count
  | r :: rs => do
    let qs ← oneSpline ((pts.take (r.2 + 1)).drop r.1) count
    let rest ← allSplines pts count rs
    .ok (qs ++ outerSep :: rest)

/-- `mkernel_get_splines`, `libs/MeshKernelApi/src/MeshKernel.cpp:1584-1655`: the coordinates written to the output, in turn.
The size of the arrays handed in is not checked there.  A negative number of points counts as zero (line 1620). -/
def getSplines (pts : List Pt) (count : Nat) : Res (List Pt) :=
  if pts.length = 0 then .throw
  else allSplines pts count (findIndices pts 0 pts.length missingDouble)

/-- The loop of `ConvertGeometryListToPointVector`, `libs/MeshKernelApi/include/MeshKernelApi/Utils.hpp:67-75`: `last` is `result.back()`. -/
def convertLoop (last : Pt) : List Pt → List Pt
  | [] => []
  | p :: ps => if p.same last then convertLoop last ps else p :: convertLoop p ps

/-- `ConvertGeometryListToPointVector`, `libs/MeshKernelApi/include/MeshKernelApi/Utils.hpp:57-77`. -/
def convert : List Pt → List Pt
  | [] => []
  | p :: ps => p :: convertLoop p ps

/-- Loop of `mkernel_splines_snap_to_landboundary`, `libs/MeshKernelApi/src/MeshKernel.cpp:3194-3200`, from `i` on, `k` rounds. -/
def copyBack (snapped out : List Pt) : Nat → Nat → Res (List Pt)
  | _, 0 => .ok out
  | i, k + 1 => do
    let p ← vget snapped i
    let out' ← vset out i p
    copyBack snapped out' (i + 1) k

/-- `mkernel_splines_snap_to_landboundary`, `libs/MeshKernelApi/src/MeshKernel.cpp:3115-3207`, from the coordinates handed in to
those left behind; `snap` is the snapping of one list of nodes, and the checks of the land boundary (lines 3141-3149) are passed. -/
def snapSplines (snap : List Pt → List Pt) (coordinates : List Pt) (start fin : Int) : Res (List Pt) :=
  if start < 0 then .throw
  else if start > fin then .throw
  else if coordinates.length = 0 then .throw
  else if start > coordinates.length then .throw
  else if fin ≥ coordinates.length then .throw
  else do
    let s ← addSpline ⟨[], []⟩ (convert coordinates) start.toNat (convert coordinates).length
    let ns ← vget s.nodes 0
    copyBack (snap ns) coordinates start.toNat (fin.toNat + 1 - start.toNat)

end Verif.Splines
