import Verif.CurviLine.Model
/-!
# Model: grids between the sides of a polygon

Models `CurvilinearGridFromPolygon.cpp`, the two functions of `Operations.cpp` that fill a grid between four sides, and
the two API functions that call them.

Coordinates are elements of an ordered field `K`: rounding is left out, and where the code divides by zero the outcome
is `none` (some coordinates are then not numbers). The distance of two points is a parameter. `UInt` numbers are natural
numbers; arithmetic that can leave the 32 bit range is done on integers and wrapped around.
-/
namespace Verif.Transfinite
open Verif.Curvi Verif.CurviLine

variable {K : Type} [Field K] [LinearOrder K]

/-! ## Filling a grid between four sides -/

/-- The arguments of `DiscretizeTransfinite`, `Operations.cpp:1278-1284`; `dist` is the distance in the projection. -/
structure Sides (K : Type) where
  dist : Pt K → Pt K → K
  left : List (Pt K)
  right : List (Pt K)
  bottom : List (Pt K)
  upper : List (Pt K)
  numM : Nat
  numN : Nat

/-- The point of a side. What lies beyond the end is not used: see `discretize`. -/
def pt (side : List (Pt K)) (i : Nat) : Pt K := side.getD i inv

/-- `ComputeDistance`, `Operations.cpp:879-921`: zero if one of the points is missing. -/
def step (dist : Pt K → Pt K → K) (p q : Pt K) : K := if valid p && valid q then dist p q else 0

/-- The sums of `ComputeAdimensionalDistancesFromPointSerie`, `Operations.cpp:1259-1263`. -/
def travelled (dist : Pt K → Pt K → K) (side : List (Pt K)) : Nat → K
  | 0 => 0
  | i + 1 => travelled dist side i + step dist (pt side i) (pt side (i + 1))

/-- The total length, `Operations.cpp:1264`. -/
def total (dist : Pt K → Pt K → K) (side : List (Pt K)) : K := travelled dist side (side.length - 1)

/-- The first result of `ComputeAdimensionalDistancesFromPointSerie`, `Operations.cpp:1255-1276`, without the tolerance
of the comparison. -/
def adim (dist : Pt K → Pt K → K) (side : List (Pt K)) (i : Nat) : K :=
  if total dist side = 0 then travelled dist side i else travelled dist side i * (1 / total dist side)

namespace Sides

/-- `iWeightFactor`, `Operations.cpp:1303, 1305`. -/
def iF (s : Sides K) (n m : Nat) : K :=
  (1 - (m : K) / (s.numM : K)) * adim s.dist s.bottom n + (m : K) / (s.numM : K) * adim s.dist s.upper n

/-- `jWeightFactor`, `Operations.cpp:1302, 1306`. -/
def jF (s : Sides K) (n m : Nat) : K :=
  (1 - (n : K) / (s.numN : K)) * adim s.dist s.left m + (n : K) / (s.numN : K) * adim s.dist s.right m

/-- `weightOne`, `Operations.cpp:1314`. -/
def w1 (s : Sides K) (n m : Nat) : K := (1 - s.jF n m) * total s.dist s.bottom + s.jF n m * total s.dist s.upper

/-- `weightTwo`, `Operations.cpp:1315`. -/
def w2 (s : Sides K) (n m : Nat) : K := (1 - s.iF n m) * total s.dist s.left + s.iF n m * total s.dist s.right

/-- `weightThree`, `Operations.cpp:1316`. -/
def w3 (s : Sides K) (n m : Nat) : K := s.w2 n m / s.w1 n m

/-- `weightFour`, `Operations.cpp:1317`. -/
def w4 (s : Sides K) (n m : Nat) : K := (s.w3 n m)⁻¹

/-- `wa`, `Operations.cpp:1318`. -/
def wa (s : Sides K) (n m : Nat) : K := (s.w3 n m + s.w4 n m)⁻¹

/-- The two interpolations and their mean, `Operations.cpp:1319-1320, 1340-1356`, for one coordinate. -/
def mix (s : Sides K) (n m : Nat) (l r b u : K) : K :=
  (l * (1 - s.iF n m) + r * s.iF n m) * (s.wa n m * s.w3 n m) +
    (b * (1 - s.jF n m) + u * s.jF n m) * (s.wa n m * s.w4 n m)

/-- The border points and the first interpolation, `Operations.cpp:1322-1358`: the last assignment to a node counts. -/
def first (s : Sides K) (n m : Nat) : Pt K :=
  if n = s.numN then pt s.right m
  else if n = 0 then pt s.left m
  else if m = s.numM then pt s.upper n
  else if m = 0 then pt s.bottom n
  else
    ⟨s.mix n m (pt s.left m).x (pt s.right m).x (pt s.bottom n).x (pt s.upper n).x,
      s.mix n m (pt s.left m).y (pt s.right m).y (pt s.bottom n).y (pt s.upper n).y⟩

/-- `valOne`, `Operations.cpp:1365-1368`. -/
def v1 (s : Sides K) (n m : Nat) : K :=
  (1 - s.jF n m) * adim s.dist s.bottom n * total s.dist s.bottom +
    s.jF n m * adim s.dist s.upper n * total s.dist s.upper

/-- `valTwo`, `Operations.cpp:1370-1373`. -/
def v2 (s : Sides K) (n m : Nat) : K :=
  (1 - s.iF n m) * adim s.dist s.left m * total s.dist s.left +
    s.iF n m * adim s.dist s.right m * total s.dist s.right

/-- `weightThree` for `n ≥ 1`, `Operations.cpp:1377-1384`. -/
def d3 (s : Sides K) (n m : Nat) : K := s.v1 n m - s.v1 (n - 1) m

/-- `weightFour` for `m ≥ 1`, `Operations.cpp:1386-1394`. -/
def d4 (s : Sides K) (n m : Nat) : K := s.v2 n m - s.v2 n (m - 1)

/-- `weightOne`, `Operations.cpp:1396-1409`. -/
def u1 (s : Sides K) (n m : Nat) : K :=
  1 / 4 * (s.d4 n m + s.d4 n (m + 1) + s.d4 (n - 1) m + s.d4 (n - 1) (m + 1)) / s.d3 n m

/-- `weightTwo`, `Operations.cpp:1411-1424`. -/
def u2 (s : Sides K) (n m : Nat) : K :=
  1 / 4 * (s.d3 n m + s.d3 n (m - 1) + s.d3 (n + 1) m + s.d3 (n + 1) (m - 1)) / s.d4 n m

/-- The inner nodes, the bounds of the loops at `Operations.cpp:1442-1444`. -/
def inner (s : Sides K) (n m : Nat) : Bool :=
  decide (1 ≤ n) && decide (n < s.numN) && decide (1 ≤ m) && decide (m < s.numM)

/-- The new value of one coordinate of a node, `Operations.cpp:1447-1462`. -/
def relax (s : Sides K) (f : Nat → Nat → K) (n m : Nat) : K :=
  1 / (s.u1 n m + s.u1 (n + 1) m + s.u2 n m + s.u2 n (m + 1)) *
    (f (n - 1) m * s.u1 n m + f (n + 1) m * s.u1 (n + 1) m + f n (m - 1) * s.u2 n m + f n (m + 1) * s.u2 n (m + 1))

/-- One round of the iteration, `Operations.cpp:1432-1468`: new values from copies of the old ones. -/
def sweep (s : Sides K) (f : Nat → Nat → Pt K) (n m : Nat) : Pt K :=
  if s.inner n m then ⟨s.relax (fun n m => (f n m).x) n m, s.relax (fun n m => (f n m).y) n m⟩ else f n m

/-- The rounds, `Operations.cpp:1430-1469`. -/
def sweeps (s : Sides K) : Nat → Nat → Nat → Pt K
  | 0 => s.first
  | k + 1 => s.sweep (sweeps s k)

/-- None of the numbers the code divides by for the inner nodes is zero. -/
def finite (s : Sides K) : Bool :=
  (List.range s.numN).all fun n => (List.range s.numM).all fun m =>
    !s.inner n m ||
      (decide (s.w1 n m ≠ 0) && decide (s.w2 n m ≠ 0) && decide (s.w3 n m + s.w4 n m ≠ 0) &&
        decide (s.d3 n m ≠ 0) && decide (s.d3 (n + 1) m ≠ 0) && decide (s.d4 n m ≠ 0) && decide (s.d4 n (m + 1) ≠ 0) &&
          decide (s.u1 n m + s.u1 (n + 1) m + s.u2 n m + s.u2 n (m + 1) ≠ 0))

/-- The sides have the points that are read, `Operations.cpp:1305-1306, 1326-1327, 1331-1332`. -/
def longEnough (s : Sides K) : Bool :=
  decide (s.numN < s.bottom.length) && decide (s.numN < s.upper.length) && decide (s.numM < s.left.length) &&
    decide (s.numM < s.right.length)

end Sides

/-- `numIterations`, `Operations.cpp:1428`. -/
def numIterations : Nat := 25

/-- `DiscretizeTransfinite`, `Operations.cpp:1278-1472`: a matrix of `numN + 1` rows and `numM + 1` columns. -/
def discretize (s : Sides K) : Res (Option (Nat → Nat → Pt K)) :=
  if s.longEnough then .ok (if s.finite then some (s.sweeps numIterations) else none) else .ub

/-- The constructor from a matrix, `CurvilinearGrid.cpp:67-73`. -/
def gridOf (rows cols : Nat) (cell : Nat → Nat → Pt K) : Res (Grid (Pt K)) :=
  setGridNodes { rows := 0, cols := 0, cell := fun _ _ => inv } rows cols cell

/-- The constructor applied to a matrix that may contain coordinates that are not numbers. -/
def gridOfMaybe (rows cols : Nat) : Option (Nat → Nat → Pt K) → Res (Option (Grid (Pt K)))
  | some cell => do .ok (some (← gridOf rows cols cell))
  | none => if rows ≤ 1 ∨ cols ≤ 1 then .throw else .ok none

/-! ## Four sides -/

/-- 32 bit unsigned arithmetic. -/
def wrap (z : Int) : Nat := (z % 4294967296).toNat

/-- `diffForward` from `a` to `b`, which is `diffBackward` from `b` to `a`: `CurvilinearGridFromPolygon.cpp:66-84` and
`101-117`. -/
def ahead (num a b : Nat) : Nat := if a > b then wrap ((b : Int) + num - a) else b - a

/-- `direction == 1`, `CurvilinearGridFromPolygon.cpp:88`. -/
def forwards (num a b : Nat) : Bool := decide (ahead num a b ≤ ahead num b a)

/-- `numMNodes - 1`, `CurvilinearGridFromPolygon.cpp:87-98`. -/
def stepsM (num a b : Nat) : Nat := if forwards num a b then ahead num a b else ahead num b a

/-- `numNNodes - 1`, `CurvilinearGridFromPolygon.cpp:100-127`. -/
def stepsN (num a b c : Nat) : Nat := if forwards num a b then ahead num b c else ahead num c b

/-- `fourthNode`, `CurvilinearGridFromPolygon.cpp:129-141`. -/
def fourthNode (num a b c : Nat) : Nat :=
  let d := if forwards num a b then wrap ((c : Int) + stepsM num a b) else wrap ((c : Int) - stepsM num a b)
  if d ≥ num then d - num else d

/-- `numRequiredPoints`, `CurvilinearGridFromPolygon.cpp:143-151`. -/
def required (num a b c : Nat) (useFourth : Bool) : Nat :=
  if useFourth then wrap (2 * (stepsM num a b : Int) + 2 * stepsN num a b c)
  else wrap (1 + 2 * (stepsM num a b : Int) + stepsN num a b c)

/-- The next node number, `CurvilinearGridFromPolygon.cpp:177-188`. -/
def next (num : Nat) (up : Bool) (i : Nat) : Nat :=
  if up then (if wrap ((i : Int) + 1) > num then wrap ((i : Int) + 1 - num) else wrap ((i : Int) + 1))
  else if i = 0 then wrap ((i : Int) + num - 1)
  else if wrap ((i : Int) - 1) > num then wrap ((i : Int) - 1 - num) else wrap ((i : Int) - 1)

/-- `assignPolygonPointsToSegment`, `CurvilinearGridFromPolygon.cpp:165-190`: the points, in turn. -/
def walk (nodes : List (Pt K)) (num : Nat) (up : Bool) : Nat → Nat → Res (List (Pt K))
  | _, 0 => .ok []
  | i, k + 1 => do
    let p ← vget nodes i
    let rest ← walk nodes num up (next num up i) k
    .ok (p :: rest)

/-- A side in a vector of `k` points, the rest missing, `CurvilinearGridFromPolygon.cpp:159-162`. -/
def pad (k : Nat) (side : List (Pt K)) : List (Pt K) := side ++ List.replicate (k - side.length) inv

/-- The points on the line between two nodes, `CurvilinearGridFromPolygon.cpp:199-204`, `k` steps. -/
def straight (p q : Pt K) (k : Nat) : List (Pt K) :=
  (List.range (k + 1)).map fun i : Nat => add (scale p (1 - (i : K) / (k : K))) (scale q ((i : K) / (k : K)))

/-- The fourth side, `CurvilinearGridFromPolygon.cpp:192-205`. -/
def sideOne (nodes : List (Pt K)) (num a b c : Nat) (useFourth : Bool) : Res (List (Pt K)) :=
  if useFourth then walk nodes num (!forwards num a b) a (stepsN num a b c + 1)
  else do
    let p ← vget nodes a
    let q ← vget nodes (fourthNode num a b c)
    .ok (straight p q (stepsN num a b c))

/-- The four sides, `CurvilinearGridFromPolygon.cpp:158-209`. -/
def polygonSides (dist : Pt K → Pt K → K) (nodes : List (Pt K)) (num a b c : Nat) (useFourth : Bool) :
    Res (Sides K) := do
  let one ← sideOne nodes num a b c useFourth
  let two ← walk nodes num (forwards num a b) b (stepsN num a b c + 1)
  let three ← walk nodes num (forwards num a b) a (stepsM num a b + 1)
  let four ← walk nodes num (!forwards num a b) (fourthNode num a b c) (stepsM num a b + 1)
  let k := max (stepsN num a b c + 1) (stepsM num a b + 1)
  .ok ⟨dist, pad k one, pad k two, pad k three, pad k four, stepsN num a b c, stepsM num a b⟩

/-- `Compute` with four sides, `CurvilinearGridFromPolygon.cpp:38-222`. The numbers of nodes of the sides do not wrap
around to zero when the node numbers are those of nodes of the polygon. -/
def fromPolygon (dist : Pt K → Pt K → K) (nodes : List (Pt K)) (a b c : Nat) (useFourth : Bool) :
    Res (Option (Grid (Pt K))) :=
  if nodes.length < 4 then .throw
  else if a = b ∨ b = c ∨ a = c then .throw
  else if required (nodes.length - 1) a b c useFourth > nodes.length - 1 then .throw
  else do
    let s ← polygonSides dist nodes (nodes.length - 1) a b c useFourth
    let r ← discretize s
    gridOfMaybe (s.numN + 1) (s.numM + 1) r

/-! ## Three sides -/

/-- The numbers of steps along the sides of the triangle, `CurvilinearGridFromPolygon.cpp:249-271`. -/
def triSide (num a b c : Nat) : Nat → Nat
  | 0 => ahead num a b
  | 1 => ahead num b c
  | _ => wrap ((num : Int) - (ahead num a b + ahead num b c))

/-- `blockSize`, `CurvilinearGridFromPolygon.cpp:272`: the sum of the three is the number of nodes. -/
def blockSize (num : Nat) : Nat := num / 2

/-- `n1`, `CurvilinearGridFromPolygon.cpp:279`. -/
def n1 (num a b c : Nat) : Nat := blockSize num - triSide num a b c 2

/-- `n2`, `CurvilinearGridFromPolygon.cpp:280`. -/
def n2 (num a b c : Nat) : Nat := blockSize num - triSide num a b c 1

/-- `n3`, `CurvilinearGridFromPolygon.cpp:281`. -/
def n3 (num a b c : Nat) : Nat := blockSize num - triSide num a b c 0

/-- The node a number of steps further, `CurvilinearGridFromPolygon.cpp:285-299`. -/
def further (num a k : Nat) : Nat := if wrap ((a : Int) + k) ≥ num then wrap ((a : Int) + k) - num else wrap ((a : Int) + k)

/-- `triangleCenter`, `CurvilinearGridFromPolygon.cpp:317-320`, for one coordinate. -/
def centreOf (xia xib xic p q r : K) : K :=
  ((p * (1 - xia) + q * xia) * xic + r * (1 - xic) + (q * (1 - xib) + r * xib) * xia + p * (1 - xia) +
    (r * (1 - xic) + p * xic) * xib + q * (1 - xib)) * (1 / 3)

/-- `triangleCenter`, `CurvilinearGridFromPolygon.cpp:310-320`. -/
def centre (nodes : List (Pt K)) (num a b c : Nat) : Res (Pt K) := do
  let p ← vget nodes a
  let q ← vget nodes b
  let r ← vget nodes c
  let xia := (n1 num a b c : K) / (triSide num a b c 0 : K)
  let xib := (n2 num a b c : K) / (triSide num a b c 1 : K)
  let xic := (n3 num a b c : K) / (triSide num a b c 2 : K)
  .ok ⟨centreOf xia xib xic p.x q.x r.x, centreOf xia xib xic p.y q.y r.y⟩

/-- The next node number, `CurvilinearGridFromPolygon.cpp:365-373` (up) and `346-357` (down). -/
def nextTri (num : Nat) (up : Bool) (i : Nat) : Nat :=
  if up then (if wrap ((i : Int) + 1) > num then wrap ((i : Int) + 1 - num) else wrap ((i : Int) + 1))
  else if i = 0 then wrap ((i : Int) + num - 1)
  else if i > num then wrap ((i : Int) - num - 1) else i - 1

/-- The loops at `CurvilinearGridFromPolygon.cpp:342-358` and `361-374`: the points, in turn. -/
def walkTri (nodes : List (Pt K)) (num : Nat) (up : Bool) : Nat → Nat → Res (List (Pt K))
  | _, 0 => .ok []
  | i, k + 1 => do
    let p ← vget nodes i
    let rest ← walkTri nodes num up (nextTri num up i) k
    .ok (p :: rest)

/-- One of the three blocks, `CurvilinearGridFromPolygon.cpp:336-395`: `corner`, `left` and `right` are node numbers,
`k` is the size of the vectors. -/
def block (dist : Pt K → Pt K → K) (nodes : List (Pt K)) (num k corner left right : Nat) (mid : Pt K) (numN numM : Nat) :
    Res (Option (Nat → Nat → Pt K)) := do
  let one ← walkTri nodes num false corner (numM + 1)
  let three ← walkTri nodes num true corner (numN + 1)
  let l ← vget nodes left
  let r ← vget nodes right
  discretize ⟨dist, pad k one, pad k (straight r mid numM), pad k three, pad k (straight l mid numN), numM, numN⟩

/-- The nodes of the grid, `CurvilinearGridFromPolygon.cpp:396-430`: the last assignment to a node counts; nodes that are
not assigned are missing. -/
def assemble (k1 k2 k3 : Nat) (b0 b1 b2 : Nat → Nat → Pt K) (i j : Nat) : Pt K :=
  if i ≤ k1 ∧ k3 ≤ j then b2 (k2 + k3 - j) i
  else if k1 ≤ i ∧ k3 ≤ j then b1 (k1 + k3 - i) (k2 + k3 - j)
  else if i ≤ k1 ∧ j ≤ k3 then b0 i j
  else inv

/-- `Compute` with three sides, `CurvilinearGridFromPolygon.cpp:224-434`. -/
def fromTriangle (dist : Pt K → Pt K → K) (nodes : List (Pt K)) (a b c : Nat) : Res (Option (Grid (Pt K))) :=
  let num := nodes.length - 1
  if nodes.length < 4 then .throw
  else if a = b ∨ b = c ∨ a = c then .throw
  else if triSide num a b c 2 ≥ blockSize num ∨ triSide num a b c 1 ≥ blockSize num ∨
      triSide num a b c 0 ≥ blockSize num then .throw
  else do
    let k1 := n1 num a b c
    let k2 := n2 num a b c
    let k3 := n3 num a b c
    let midA := further num a k1
    let midB := further num b k3
    let midC := further num c k2
    let mid ← centre nodes num a b c
    let k := max (max k1 k2) k3 + 1
    let b0 ← block dist nodes num k a midC midA mid k1 k3
    let b1 ← block dist nodes num k b midA midB mid k3 k2
    let b2 ← block dist nodes num k c midB midC mid k2 k1
    match b0, b1, b2 with
    | some f0, some f1, some f2 =>
      gridOfMaybe (k1 + k3 + 1) (k2 + k3 + 1) (some (assemble k1 k2 k3 f0 f1 f2))
    | _, _, _ => gridOfMaybe (k1 + k3 + 1) (k2 + k3 + 1) none

/-! ## The API -/

/-- The loop of `ConvertGeometryListToPointVector`, `Utils.hpp:67-75`, without the tolerance of the comparison: `last` is
`result.back()`. -/
def convertLoop (last : Pt K) : List (Pt K) → List (Pt K)
  | [] => []
  | p :: ps => if p.x = last.x ∧ p.y = last.y then convertLoop last ps else p :: convertLoop p ps

/-- `ConvertGeometryListToPointVector`, `Utils.hpp:57-77`. -/
def convert : List (Pt K) → List (Pt K)
  | [] => []
  | p :: ps => p :: convertLoop p ps

/-- The constructor of a polygon, `Polygon.cpp:22-41`, without the bounding box and the tolerance of the comparisons. -/
def makePolygon (nodes : List (Pt K)) : Res (List (Pt K)) :=
  if 0 < nodes.length ∧ nodes.length < 4 then .throw
  else if nodes.head? ≠ nodes.getLast? then .throw
  else if nodes.any (fun p => !valid p) then .throw
  else .ok nodes

/-- `mkernel_curvilinear_compute_transfinite_from_polygon`, `libs/MeshKernelApi/src/MeshKernel.cpp:3891-3926`: what it does
with its arguments. Node numbers become unsigned. -/
def polygonCall (dist : Pt K → Pt K → K) (given : List (Pt K)) (a b c useFourth : Int) : Res (Option (Grid (Pt K))) := do
  let nodes ← makePolygon (convert given)
  fromPolygon dist nodes (wrap a) (wrap b) (wrap c) (decide (useFourth = 1))

/-- `mkernel_curvilinear_compute_transfinite_from_triangle`, `libs/MeshKernelApi/src/MeshKernel.cpp:3928-3960`. -/
def triangleCall (dist : Pt K → Pt K → K) (given : List (Pt K)) (a b c : Int) : Res (Option (Grid (Pt K))) := do
  let nodes ← makePolygon (convert given)
  fromTriangle dist nodes (wrap a) (wrap b) (wrap c)

end Verif.Transfinite
