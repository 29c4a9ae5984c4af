import Verif.Polygons.RefineModel
/-!
# Linear refinement of a polygon

Models `Polygon::LinearRefine` with its helpers, and `Polygons::LinearRefinePolygon`.  The distance of two points is a
parameter.  A division by zero, which gives infinity or not-a-number in the code, is the outcome `ub` here.
-/
namespace Verif.Polygons

/-- The default point `Point()`, `libs/MeshKernel/include/MeshKernel/Point.hpp:47-51`. -/
def missingPt : Pt := ⟨-999, -999⟩

/-- `cumulativeDistances`, `libs/MeshKernel/src/Polygon.cpp:519-524`: the length up to each node, `acc` at the first. -/
def cumulate (dist : Pt → Pt → ℚ) : ℚ → List Pt → List ℚ
  | _, [] => []
  | acc, [_] => [acc]
  | acc, a :: b :: ps => acc :: cumulate dist (acc + dist b a) (b :: ps)

/-- The loop of `computeAverageLengths`, `libs/MeshKernel/src/Polygon.cpp:306-309`. -/
def averageInner : List ℚ → List ℚ
  | a :: b :: c :: t => 1 / 2 * (c - a) :: averageInner (b :: c :: t)
  | _ => []

/-- `computeAverageLengths`, `libs/MeshKernel/src/Polygon.cpp:302-310`; the output has the size of the input.  With one
entry `cumulativeDistances[1]` is out of bounds. -/
def averages (cum : List ℚ) : Res (List ℚ) := do
  let c0 ← vget cum 0
  let c1 ← vget cum 1
  let l0 ← vget cum (cum.length - 2)
  let l1 ← vget cum (cum.length - 1)
  .ok ((c1 - c0) :: averageInner cum ++ [l1 - l0])

/-- `accumulate(...) - 0.5 * (front + back)`, `libs/MeshKernel/src/Polygon.cpp:314-316,548-549`. -/
def target (avg : List ℚ) : Res ℚ := do
  let f ← vget avg 0
  let b ← vget avg (avg.length - 1)
  .ok (avg.sum - 1 / 2 * (f + b))

/-- The loop of `smoothCumulativeDistance`, `libs/MeshKernel/src/Polygon.cpp:319-324`. -/
def smoothLoop (dfac : ℚ) : ℚ → List ℚ → List ℚ
  | acc, a :: b :: c :: t =>
    (acc + 1 / 2 * (a + b)) * dfac :: smoothLoop dfac (acc + 1 / 2 * (a + b)) (b :: c :: t)
  | _, _ => []

/-- `smoothCumulativeDistance`, `libs/MeshKernel/src/Polygon.cpp:312-325`; the first and the last entry stay. -/
def smoothCumulative (avg cum : List ℚ) : Res (List ℚ) := do
  let disc ← target avg
  let c0 ← vget cum 0
  let back ← vget cum (cum.length - 1)
  if disc = 0 then .ub else .ok (c0 :: smoothLoop (back / disc) 0 avg ++ [back])

/-- `smoothAverageLengths`, `libs/MeshKernel/src/Polygon.cpp:327-342`, for more than one entry. -/
def smoothAverages (cum : List ℚ) (first last : ℚ) : Res (List ℚ) := do
  let back ← vget cum (cum.length - 1)
  if back = 0 then .ub else .ok (cum.map (fun c => (1 - c / back) * first + c / back * last))

/-- `interpolatePointOnPolyline`, `libs/MeshKernel/src/Polygon.cpp:344-377`. -/
def sample (nodes : List Pt) (cum0 : List ℚ) (d : ℚ) : Res Pt :=
  if cum0.isEmpty then .throw
  else
    let i := (cum0.findIdx? (fun c => decide (d < c))).getD (cum0.length - 1)
    if i = 0 then .ub
    else do
      let c1 ← vget cum0 i
      let c0 ← vget cum0 (i - 1)
      let a ← vget nodes (i - 1)
      let b ← vget nodes i
      .ok (pointAt a b (if c1 - c0 ≠ 0 then (d - c0) / (c1 - c0) else 0))

/-- The loop over the nodes, `libs/MeshKernel/src/Polygon.cpp:540-543`. -/
def sampleAll (nodes : List Pt) (cum0 : List ℚ) : List ℚ → Res (List Pt)
  | [] => .ok []
  | d :: ds => do
    let p ← sample nodes cum0 d
    let ps ← sampleAll nodes cum0 ds
    .ok (p :: ps)

/-- `cumulativeDistances`, `averageLengths`, `actualAverageLengths` and `result`. -/
structure LinState where
  cum : List ℚ
  avg : List ℚ
  act : List ℚ
  result : List Pt

/-- Body of the inner loop, `libs/MeshKernel/src/Polygon.cpp:538-550`. -/
def innerStep (nodes : List Pt) (cum0 : List ℚ) (first last : ℚ) (s : LinState) : Res LinState := do
  let result ← sampleAll nodes cum0 s.cum
  let act ← averages s.cum
  let avg ← smoothAverages s.cum first last
  let cum ← smoothCumulative avg s.cum
  .ok ⟨cum, avg, act, result⟩

/-- The inner loop. -/
def innerLoop (nodes : List Pt) (cum0 : List ℚ) (first last : ℚ) : Nat → LinState → Res LinState
  | 0, s => .ok s
  | k + 1, s => do
    let t ← innerStep nodes cum0 first last s
    innerLoop nodes cum0 first last k t

/-- The loop over the ratios, `libs/MeshKernel/src/Polygon.cpp:558-574`: the positions of the smallest ratio (not at the
first node) and of the largest one, with the ratio. -/
def ratios : List ℚ → List ℚ → Nat → Option (ℚ × Nat) → Option (ℚ × Nat) →
    Res (Option (ℚ × Nat) × Option (ℚ × Nat))
  | a :: a' :: as, v :: v' :: vs, i, mn, mx =>
    if v = 0 then .ub
    else
      ratios (a' :: as) (v' :: vs) (i + 1)
        (if 0 < i ∧ mn.all (fun m => decide (a / v < m.1)) then some (a / v, i) else mn)
        (if mx.all (fun m => decide (m.1 < a / v)) then some (a / v, i) else mx)
  | _, _, _, mn, mx => .ok (mn, mx)

/-- Removing a node, `libs/MeshKernel/src/Polygon.cpp:578-586`. -/
def removeNode (s : LinState) (i : Nat) : LinState :=
  ⟨s.cum.eraseIdx i, s.avg.dropLast, s.act.dropLast, s.result.dropLast⟩

/-- Adding a node, `libs/MeshKernel/src/Polygon.cpp:590-603`; `std::vector::resize` appends zeros and default points. -/
def insertNode (s : LinState) (j : Nat) : Res LinState := do
  let c0 ← vget s.cum j
  let c1 ← vget s.cum (j + 1)
  .ok ⟨s.cum.insertIdx (j + 1) (1 / 2 * (c0 + c1)), s.avg ++ [0], s.act ++ [0], s.result ++ [missingPt]⟩

/-- The second decision, `libs/MeshKernel/src/Polygon.cpp:588-608`; the flag says that the loop is left. -/
def insertOrStop (total t : ℚ) (s : LinState) : Option (ℚ × Nat) → Res (LinState × Bool)
  | none => .ub
  | some (_, j) => do
    let a ← vget s.act j
    if t + 1 / 2 * a < total then do
      let s1 ← insertNode s j
      .ok (s1, false)
    else .ok (s, true)

/-- The decision, `libs/MeshKernel/src/Polygon.cpp:576-608`. -/
def chooseStep (total t : ℚ) (s : LinState) (mn mx : Option (ℚ × Nat)) : Res (LinState × Bool) :=
  match mn with
  | none => insertOrStop total t s mx
  | some (_, i) => do
    let a ← vget s.avg i
    if t - 3 / 2 * a > total then .ok (removeNode s i, false) else insertOrStop total t s mx

/-- Body of the outer loop, `libs/MeshKernel/src/Polygon.cpp:536-611`. -/
def outerStep (nodes : List Pt) (cum0 : List ℚ) (first last total : ℚ) (s : LinState) : Res (LinState × Bool) := do
  let s1 ← innerLoop nodes cum0 first last 20 s
  let t ← target s1.avg
  let m ← ratios s1.act s1.avg 0 none none
  chooseStep total t s1 m.1 m.2

/-- The outer loop with the number of rounds that are left. -/
def outerLoop (nodes : List Pt) (cum0 : List ℚ) (first last total : ℚ) : Nat → LinState → Res LinState
  | 0, s => .ok s
  | k + 1, s => do
    let r ← outerStep nodes cum0 first last total s
    if r.2 then .ok r.1 else outerLoop nodes cum0 first last total k r.1

/-- `Polygon::LinearRefine` for the nodes of the range, `libs/MeshKernel/src/Polygon.cpp:519-611`. -/
def resample (dist : Pt → Pt → ℚ) (nodes : List Pt) : Res (List Pt) := do
  let cum0 := cumulate dist 0 nodes
  let avg ← averages cum0
  let first ← vget avg 0
  let last ← vget avg (avg.length - 1)
  let total ← vget cum0 (cum0.length - 1)
  let s ← outerLoop nodes cum0 first last total nodes.length
    ⟨cum0, avg, List.replicate nodes.length 0, List.replicate nodes.length missingPt⟩
  .ok s.result

/-- `polygonNodes`, `libs/MeshKernel/src/Polygon.cpp:489-517`. -/
def rangeNodes (nodes : List Pt) (startIndex endIndex : Nat) : List Pt :=
  if startIndex < endIndex then (nodes.drop startIndex).take (endIndex - startIndex + 1)
  else nodes.drop startIndex ++ (nodes.take (endIndex + 1)).drop 1

/-- `Polygon::LinearRefine`, `libs/MeshKernel/src/Polygon.cpp:447-624`. -/
def linearRefine (dist : Pt → Pt → ℚ) (nodes : List Pt) (startIndex endIndex : Nat) : Res (List Pt) :=
  if startIndex ≥ nodes.length then .throw
  else if endIndex ≥ nodes.length then .throw
  else if startIndex = endIndex then .ok nodes
  else if nodes.length < 4 then .ok nodes
  else do
    let r ← resample dist (rangeNodes nodes startIndex endIndex)
    if endIndex > startIndex then .ok (nodes.take startIndex ++ r ++ nodes.drop (endIndex + 1))
    else .ok ((nodes.take startIndex).drop endIndex ++ r)

/-- `Polygons::LinearRefinePolygon`, `libs/MeshKernel/src/Polygons.cpp:180-189`. -/
def linearRefinePolygon (dist : Pt → Pt → ℚ) (P : PolyList) (k startIndex endIndex : Nat) : Res (List Pt) :=
  match P.enclosures[k]? with
  | none => .throw
  | some e => linearRefine dist e.outer startIndex endIndex

end Verif.Polygons
