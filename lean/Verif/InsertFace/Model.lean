import Verif.CurviLine.MirrorModel
/-!
# Model: inserting a face into a curvilinear grid

Models `InsertFace` and `AddEdge` of `CurvilinearGrid.cpp` and the API function that calls them. The node types,
`GetBoundaryGridLineType`, `AddGridLineAtBoundary` and the undo of an added line are in `Verif.CurviLine.MirrorModel`,
`MoveNode` in `Verif.Curvi.EditModel`.

The search for the edge nearest to the given point is left out: the operation takes the two nodes of the edge it found.
Coordinates are elements of a field `K`: rounding is left out.
-/
namespace Verif.InsertFace
open Verif.Curvi Verif.CurviLine

/-- `n - 1` for a 32 bit unsigned number. -/
def before (n : Nat) : Nat := if n = 0 then missing else n - 1

/-- The node one line inwards, `CurvilinearGrid.cpp:858, 877, 892, 912`. -/
def behind : Side → Nat × Nat → Nat × Nat
  | .bottom, v => (v.1 + 1, v.2)
  | .top, v => (before v.1, v.2)
  | .left, v => (v.1, v.2 + 1)
  | .right, v => (v.1, before v.2)

/-- The node that gets the new position, `CurvilinearGrid.cpp:862-872, 886, 896-907, 921`: `added` says whether a line was
added. -/
def ahead (added : Bool) : Side → Nat × Nat → Nat × Nat
  | .bottom, v => if added then (0, v.2) else (before v.1, v.2)
  | .top, v => (v.1 + 1, v.2)
  | .left, v => if added then (v.1, 0) else (v.1, before v.2)
  | .right, v => (v.1, v.2 + 1)

/-- The parts of the undo action, `CurvilinearGrid.cpp:852-922`: the added line, if any, and the two nodes. -/
structure FaceAct (P : Type) where
  line : Option Side
  first : Act P
  second : Act P

section
variable {P : Type} [PointLike P]

/-- Undo: the parts from the last to the first, `CompoundUndoAction.cpp:34-40`. -/
def FaceAct.restore (u : FaceAct P) (g : Grid P) : Res (FaceAct P × Grid P) := do
  let s ← u.second.restore g
  let f ← u.first.restore s.2
  match u.line with
  | none => .ok (⟨none, f.1, s.1⟩, f.2)
  | some side => do
    let g' ← hideLine f.2 side
    .ok (⟨some side, f.1, s.1⟩, g')

/-- The two nodes again. -/
def FaceAct.commitNodes (u : FaceAct P) (g : Grid P) : Res (FaceAct P × Grid P) := do
  let f ← u.first.commit g
  let s ← u.second.commit f.2
  .ok (⟨u.line, f.1, s.1⟩, s.2)

/-- Redo: the parts from the first to the last, `CompoundUndoAction.cpp:26-32`. -/
def FaceAct.commit (u : FaceAct P) (g : Grid P) : Res (FaceAct P × Grid P) :=
  match u.line with
  | none => u.commitNodes g
  | some side => do
    let g' ← showLine g side
    u.commitNodes g'

end

variable {K : Type} [Field K] [LinearOrder K]

/-- The new position, `CurvilinearGrid.cpp:858-859, 877-878, 892-893, 912-913`. -/
def newPosition (g : Grid (Pt K)) (side : Side) (v : Nat × Nat) : Res (Pt K) := do
  let p ← getNode g v.1 v.2
  let q ← getNode g (behind side v).1 (behind side v).2
  .ok (sub (scale p 2) q)

/-- `AddEdge`, `CurvilinearGrid.cpp:845-936`. -/
def addEdge (g : Grid (Pt K)) (a b : Nat × Nat) : Res (Grid (Pt K) × FaceAct (Pt K)) := do
  let side ← boundaryType g a b
  let p ← newPosition g side a
  let q ← newPosition g side b
  let r ← addGridLine g a b
  let f ← moveNode r.1 (ahead r.2.isSome side a).1 (ahead r.2.isSome side a).2 p
  let s ← moveNode f.1 (ahead r.2.isSome side b).1 (ahead r.2.isSome side b).2 q
  .ok (s.1, ⟨r.2, f.2, s.2⟩)

/-- What a call leaves: the grid and the undo action, or no action if the call reports an error. -/
structure Outcome (K : Type) where
  grid : Grid (Pt K)
  undo : Option (FaceAct (Pt K))

/-- `InsertFace`, `CurvilinearGrid.cpp:653-679`, called by `mkernel_curvilinear_insert_face`,
`libs/MeshKernelApi/src/MeshKernel.cpp:4717-4746`, for the edge `a`, `b` that the search found. Loose nodes are removed before
anything is checked. If `AddEdge` fails it does so before it has changed the grid (`addEdge_fails_early`). -/
def insertFace (g : Grid (Pt K)) (a b : Nat × Nat) : Res (Outcome K) :=
  if !g.isValid then .ok ⟨g, none⟩
  else do
    let g1 ← clean g
    match addEdge g1 a b with
    | .ok r => do
      let g2 ← clean r.1
      .ok ⟨g2, some r.2⟩
    | .throw => .ok ⟨g1, none⟩
    | .ub => .ub

end Verif.InsertFace
