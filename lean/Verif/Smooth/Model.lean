import Verif.CurviLine.Model
import Verif.Curvi.IndexLemmas
/-!
# Model: smoothing a curvilinear grid

Models `CurvilinearGridSmoothing.cpp`, `ComputeGridNodeTypes` of `CurvilinearGrid.cpp` and the two API functions that
call them.

Coordinates are elements of an ordered field `K`: rounding is left out. Where the code divides by zero, the new position
is not a number and the model has `none`. The search that turns a point into a node is left out: the operations take the
node it found.
-/
namespace Verif.Smooth
open Verif.Curvi Verif.CurviLine

/-- `NodeType`, `CurvilinearGridUtilities.hpp:35-47`. -/
inductive NodeType where
  | bottomLeft | upperLeft | bottomRight | upperRight | left | right | bottom | up | internal | invalid
  deriving DecidableEq

/-- The type of an inner node of the matrix from the faces around it, `CurvilinearGrid.cpp:539-648`: top right, top left,
bottom left, bottom right. -/
def typeFromFaces (tr tl bl br : Bool) : NodeType :=
  if tr && tl && bl && br then .internal
  else if !tr && tl && bl && br then .bottomLeft
  else if tr && !tl && bl && br then .bottomRight
  else if tr && tl && !bl && br then .upperRight
  else if tr && tl && bl && !br then .upperLeft
  else if tr && tl && !bl && !br then .bottom
  else if tr && !tl && !bl && br then .left
  else if !tr && !tl && bl && br then .up
  else if !tr && tl && bl && !br then .right
  else if tr && !tl && !bl && !br then .bottomLeft
  else if !tr && tl && !bl && !br then .bottomRight
  else if !tr && !tl && bl && !br then .upperRight
  else if !tr && !tl && !bl && br then .upperLeft
  else .invalid

section
variable {P : Type} [PointLike P]

/-- The type `ComputeGridNodeTypes` gives to a visible node, `CurvilinearGrid.cpp:444-648`; `face` is the mask of the
faces. The nodes and faces that are read exist. -/
def typeOf (g : Grid P) (face : Nat → Nat → Bool) (n m : Nat) : NodeType :=
  if !valid (g.node n m) then .invalid
  else if m = 0 ∧ n = 0 then .bottomLeft
  else if m = 0 ∧ n = g.numN - 1 then .bottomRight
  else if m = 0 ∧ !valid (g.node (n - 1) m) then .bottomLeft
  else if m = 0 ∧ !valid (g.node (n + 1) m) then .bottomRight
  else if m = 0 then .bottom
  else if m = g.numM - 1 ∧ n = 0 then .upperLeft
  else if m = g.numM - 1 ∧ n = g.numN - 1 then .upperRight
  else if m = g.numM - 1 ∧ !valid (g.node (n - 1) m) then .upperLeft
  else if m = g.numM - 1 ∧ !valid (g.node (n + 1) m) then .upperRight
  else if m = g.numM - 1 then .up
  else if n = 0 ∧ !valid (g.node n (m - 1)) then .bottomLeft
  else if n = 0 ∧ !valid (g.node n (m + 1)) then .upperRight
  else if n = 0 then .left
  else if n = g.numN - 1 ∧ !valid (g.node n (m - 1)) then .bottomRight
  else if n = g.numN - 1 ∧ !valid (g.node n (m + 1)) then .upperRight
  else if n = g.numN - 1 then .right
  else typeFromFaces (face n m) (face (n - 1) m) (face (n - 1) (m - 1)) (face n (m - 1))

/-- `ComputeGridNodeTypes`, `CurvilinearGrid.cpp:433-651`, called by the constructor, `CurvilinearGridSmoothing.cpp:40-48`:
the grid without loose nodes and the types. The mask is the one of the last round of the removal. -/
def setup (g : Grid P) : Res (Grid P × (Nat → Nat → NodeType)) := do
  let g1 ← clean g
  let mask ← computeGridFacesMask g1
  .ok (g1, typeOf g1 mask.node)

end

variable {K : Type} [Field K] [LinearOrder K]

/-! ## Smoothing -/

/-- A foot point: `projectedPoint`, the square of its distance from the first node, and whether it is on the segment. -/
structure Foot (K : Type) where
  pos : Pt K
  far : K
  on : Bool

/-- The square of a length. -/
def len2 (d : Pt K) : K := d.x * d.x + d.y * d.y

/-- `segmentRatio`, `Operations.cpp:1566`. -/
def ratio (a b p : Pt K) : K :=
  (p.x * (sub b a).x + p.y * (sub b a).y - a.x * (sub b a).x - a.y * (sub b a).y) / len2 (sub b a)

/-- `OrthogonalProjectionOnSegment`, `Operations.cpp:1560-1572`; `none` if the nodes coincide. The result at line 1570 is
a length; it is only compared where it is not negative, so that its square will do. -/
def foot (a b p : Pt K) : Option (Foot K) :=
  if len2 (sub b a) = 0 then none
  else some ⟨add a (scale (sub b a) (ratio a b p)), ratio a b p * ratio a b p * len2 (sub b a),
    decide (ratio a b p ≥ 0) && decide (ratio a b p ≤ 1)⟩

/-- `ProjectPointOnClosestGridBoundary`, `CurvilinearGridSmoothing.cpp:251-275`. What is not a number is on no segment. -/
def slide (c prev next p : Pt K) : Option (Pt K) :=
  match foot c prev p, foot c next p with
  | some f, some s =>
    if f.on && s.on && decide (s.far > f.far) then some s.pos
    else if f.on && s.on && decide (s.far ≤ f.far) then some f.pos
    else if f.on then some f.pos
    else if s.on then some s.pos
    else some (scale (add f.pos s.pos) (1 / 2))
  | some f, none => if f.on then some f.pos else none
  | none, some s => if s.on then some s.pos else none
  | none, none => none

/-- The types that are skipped, `CurvilinearGridSmoothing.cpp:192-199`. -/
def skipped : NodeType → Bool
  | .invalid => true
  | .bottomLeft => true
  | .upperLeft => true
  | .bottomRight => true
  | .upperRight => true
  | _ => false

/-- The weighted mean of a node on the border and three others, `CurvilinearGridSmoothing.cpp:215-227`. -/
def pulledTo (c p q r : Pt K) : Pt K :=
  add (scale c (1 / 2)) (scale (scale (add (add p q) r) (1 / 3)) (1 - 1 / 2))

/-- The new position of a node that is not skipped, `CurvilinearGridSmoothing.cpp:202-230, 240-249`; `c` is the copy of
the nodes. -/
def position (t : NodeType) (c : Nat → Nat → Pt K) (n m : Nat) : Option (Pt K) :=
  match t with
  | .bottom => slide (c n m) (c (n - 1) m) (c (n + 1) m) (pulledTo (c n m) (c (n - 1) m) (c (n + 1) m) (c n (m + 1)))
  | .up => slide (c n m) (c (n - 1) m) (c (n + 1) m) (pulledTo (c n m) (c (n - 1) m) (c (n + 1) m) (c n (m - 1)))
  | .right => slide (c n m) (c n (m - 1)) (c n (m + 1)) (pulledTo (c n m) (c n (m - 1)) (c n (m + 1)) (c (n - 1) m))
  | .left => slide (c n m) (c n (m - 1)) (c n (m + 1)) (pulledTo (c n m) (c n (m - 1)) (c n (m + 1)) (c (n + 1) m))
  | _ => some (add (add (scale (c n m) (1 / 2)) (scale (scale (add (c (n - 1) m) (c (n + 1) m)) (1 / 4)) (1 - 1 / 2)))
      (scale (scale (add (c n (m - 1)) (c n (m + 1))) (1 / 4)) (1 - 1 / 2)))

/-- The body of the loop, `CurvilinearGridSmoothing.cpp:191-230`. -/
def smoothNode (types : Nat → Nat → NodeType) (c : Nat → Nat → Pt K) (n m : Nat) (g : Grid (Pt K)) : Res (Grid (Pt K)) :=
  if skipped (types n m) then .ok g else setNode g n m ((position (types n m) c n m).getD inv)

/-- All new positions are numbers. -/
def allNumbers (types : Nat → Nat → NodeType) (c : Nat → Nat → Pt K) (lo up : Nat × Nat) : Bool :=
  (List.range' lo.1 (up.1 + 1 - lo.1)).all fun n => (List.range' lo.2 (up.2 + 1 - lo.2)).all fun m =>
    skipped (types n m) || (position (types n m) c n m).isSome

/-- `Solve`, `CurvilinearGridSmoothing.cpp:178-233`. The copy of the nodes, line 184, is the whole matrix and is read
without the offsets. -/
def solve (types : Nat → Nat → NodeType) (lo up : Nat × Nat) (g : Grid (Pt K)) : Res (Option (Grid (Pt K))) :=
  if allNumbers types g.cell lo up then do
    let g' ← forRange lo.1 (up.1 + 1) (fun n => forRange lo.2 (up.2 + 1) (smoothNode types g.cell n)) g
    .ok (some g')
  else .ok none

/-- The rounds, `CurvilinearGridSmoothing.cpp:59-62`; once a position is not a number there is nothing more to say. -/
def rounds (types : Nat → Nat → NodeType) (lo up : Nat × Nat) : Nat → Grid (Pt K) → Res (Option (Grid (Pt K)))
  | 0, g => .ok (some g)
  | k + 1, g => do
    let r ← solve types lo up g
    match r with
    | some g' => rounds types lo up k g'
    | none => .ok none

/-- `Compute`, `CurvilinearGridSmoothing.cpp:50-65`. -/
def compute (types : Nat → Nat → NodeType) (lo up : Nat × Nat) (k : Nat) (g : Grid (Pt K)) :
    Res (Option (Grid (Pt K)) × Act (Pt K)) := do
  let b ← saveBlock g lo.1 lo.2 (up.1 + 1) (up.2 + 1)
  let r ← rounds types lo up k g
  .ok (r, .block b)

/-- What a call leaves: the grid (`none` if it contains positions that are not numbers) and the undo action, or no action
if the call reports an error. -/
structure Outcome (K : Type) where
  grid : Option (Grid (Pt K))
  undo : Option (Act (Pt K))

/-- A signed number of rounds made unsigned, `MeshKernel.cpp:4467` (a cast) and `4514` (a conversion). -/
def unsigned (k : Int) : Nat := (k % 4294967296).toNat

/-- `mkernel_curvilinear_smoothing`, `libs/MeshKernelApi/src/MeshKernel.cpp:4436-4477`, for the nodes the search found. The
constructor has changed the grid before the block is checked. -/
def smoothing (g : Grid (Pt K)) (k : Int) (a b : Nat × Nat) : Res (Outcome K) :=
  if !g.isValid then .ok ⟨some g, none⟩
  else do
    let s ← setup g
    match setBlock s.1 a b with
    | .ok r => do
      let o ← compute s.2 r.1 r.2 (unsigned k) s.1
      .ok ⟨o.1, some o.2⟩
    | .throw => .ok ⟨some s.1, none⟩
    | .ub => .ub

/-! ## Smoothing along a grid line -/

/-- The types that are smoothed, `CurvilinearGridSmoothing.cpp:112-124`. -/
def along (alongN : Bool) : NodeType → Bool
  | .internal => true
  | .bottom => alongN
  | .up => alongN
  | .left => !alongN
  | .right => !alongN
  | _ => false

/-- `1e-8`, `CurvilinearGridSmoothing.cpp:161`. -/
def tiny : K := 1 / 100000000

/-- The share of the way to the farther neighbour, `CurvilinearGridSmoothing.cpp:152-161`: `s` is the smoothing factor. -/
def share (s l1 l2 : K) : K :=
  if max l1 l2 < tiny then 1 / 2 else s * (1 / 2) * (|l2 - l1| * (1 / 2)) / max l1 l2

/-- The new position, `CurvilinearGridSmoothing.cpp:138-173`: `c` is the node, `p` and `q` are its neighbours in the copy
of the nodes, `c'` is the node in the grid. -/
def directed (s : K) (c p q c' : Pt K) : Pt K :=
  let l1 := len2 (sub c p)
  let l2 := len2 (sub c q)
  add c (scale (if l1 > l2 then sub p c' else sub q c') (share s l1 l2))

/-- The new position from the copy of the nodes, `CurvilinearGridSmoothing.cpp:141-173`. -/
def directedAt (geo : Geo K) (l : Line) (lo up : Nat × Nat) (c : Nat → Nat → Pt K) (n m : Nat) (c' : Pt K) : Pt K :=
  if l.alongN then directed (lineFactor geo l lo up n m) (c n m) (c (n - 1) m) (c (n + 1) m) c'
  else directed (lineFactor geo l lo up n m) (c n m) (c n (m - 1)) (c n (m + 1)) c'

/-- The body of the loop, `CurvilinearGridSmoothing.cpp:132-173`. -/
def directNode (geo : Geo K) (l : Line) (lo up : Nat × Nat) (types : Nat → Nat → NodeType) (c : Nat → Nat → Pt K) (n m : Nat)
    (g : Grid (Pt K)) : Res (Grid (Pt K)) :=
  if !along l.alongN (types n m) then .ok g
  else do
    let c' ← getNode g n m
    setNode g n m (directedAt geo l lo up c n m c')

/-- `SolveDirectional`, `CurvilinearGridSmoothing.cpp:106-176`; the copy is read without the offsets. -/
def solveDirectional (geo : Geo K) (l : Line) (lo up : Nat × Nat) (types : Nat → Nat → NodeType) (g : Grid (Pt K)) :
    Res (Grid (Pt K)) :=
  forRange lo.1 (up.1 + 1) (fun n => forRange lo.2 (up.2 + 1) (directNode geo l lo up types g.cell n)) g

/-- The rounds, `CurvilinearGridSmoothing.cpp:98-101`. -/
def directRounds (geo : Geo K) (l : Line) (lo up : Nat × Nat) (types : Nat → Nat → NodeType) :
    Nat → Grid (Pt K) → Res (Grid (Pt K))
  | 0, g => .ok g
  | k + 1, g => do
    let g' ← solveDirectional geo l lo up types g
    directRounds geo l lo up types k g'

/-- `ComputeDirectional`, `CurvilinearGridSmoothing.cpp:67-104`, up to the copy at its end. -/
def computeDirectional (geo : Geo K) (lines : List Line) (lo up : Nat × Nat) (types : Nat → Nat → NodeType) (k : Nat)
    (g : Grid (Pt K)) : Res (Grid (Pt K)) :=
  match lines with
  | [] => .throw
  | l :: _ =>
    if (!l.alongN ∧ lo.1 = up.1) ∨ (l.alongN ∧ lo.2 = up.2) then .throw
    else directRounds geo l (regionOf l lo up).1 (regionOf l lo up).2 types k g

/-- What a call of directional smoothing leaves: the grid of the state and, if the call succeeds, the grid the undo action
puts in its place. -/
structure Directed (K : Type) where
  grid : Grid (Pt K)
  kept : Option (Grid (Pt K))

/-- `mkernel_curvilinear_smoothing_directional`, `libs/MeshKernelApi/src/MeshKernel.cpp:4479-4530`, for the nodes the search
found. The undo action holds the pointer to the grid object (`MKStateUndoAction.cpp:35-48`), the smoothing works on this
object, and a copy of it (`CurvilinearGrid.cpp:42-51`) becomes the grid of the state. -/
def smoothingDirectional (geo : Geo K) (g : Grid (Pt K)) (k : Int) (a b c d : Nat × Nat) : Res (Directed K) :=
  if !g.isValid then .ok ⟨g, none⟩
  else do
    let s ← setup g
    match setLine s.1 [] a b with
    | .throw => .ok ⟨s.1, none⟩
    | .ub => .ub
    | .ok lines =>
      match setBlock s.1 c d with
      | .throw => .ok ⟨s.1, none⟩
      | .ub => .ub
      | .ok r =>
        match computeDirectional geo lines r.1 r.2 s.2 (unsigned k) s.1 with
        | .throw => .ok ⟨s.1, none⟩
        | .ub => .ub
        | .ok g' => .ok ⟨copyGrid g', some g'⟩

end Verif.Smooth
