import Verif.CurviLine.Model
/-!
# The line shift calls of the API

The line shift is a session: `initialize` makes an object holding a reference to the curvilinear grid of the state,
later calls use this object. Grids are kept in a list of objects; the state holds the number of its current grid and
the session the number of the grid it refers to. A grid that was replaced is still there, because the undo stack keeps a
pointer to it (`MKStateUndoAction.cpp:35-48`); once that entry is dropped the reference dangles, which is not modelled.
-/
namespace Verif.CurviLine
open Verif.Curvi

variable {K : Type} [Field K] [LinearOrder K]

/-- `CurvilinearGridLineShift`: the grid it refers to, its copy of the grid, lines and block,
`CurvilinearGridAlgorithm.hpp:65-68`. -/
structure Session (K : Type) where
  grid : Nat
  orig : Grid (Pt K)
  lines : List Line
  lo : Nat × Nat
  up : Nat × Nat

/-- The part of the state these calls use, `State.hpp:66` and `72`. -/
structure World (K : Type) where
  grids : List (Grid (Pt K))
  current : Nat
  session : Option (Session K)

/-- A pointer followed. -/
def World.at (w : World K) (i : Nat) : Res (Grid (Pt K)) :=
  match w.grids[i]? with
  | some g => .ok g
  | none => .ub

/-- `mkernel_curvilinear_initialize_line_shift`, `MeshKernel.cpp:4532-4560`. -/
def beginShift (w : World K) : Res (World K) := do
  let g ← w.at w.current
  if !g.isValid then .throw
  else .ok { w with session := some ⟨w.current, copyGrid g, [], (missing, missing), (missing, missing)⟩ }

/-- The session a call follows without looking whether there is one, as in `MeshKernel.cpp:4579`, `4641` and `4665`. -/
def World.follow (w : World K) : Res (Session K) :=
  match w.session with
  | some s => .ok s
  | none => .ub

/-- `mkernel_curvilinear_set_line_line_shift`, `MeshKernel.cpp:4562-4586`. -/
def sessionSetLine (w : World K) (a b : Nat × Nat) : Res (World K) := do
  let s ← w.follow
  let g ← w.at s.grid
  let lines ← setLine g s.lines a b
  .ok { w with session := some { s with lines := lines } }

/-- `mkernel_curvilinear_set_block_line_shift`, `MeshKernel.cpp:4624-4648`. -/
def sessionSetBlock (w : World K) (a b : Nat × Nat) : Res (World K) := do
  let s ← w.follow
  let g ← w.at s.grid
  let r ← setBlock g a b
  .ok { w with session := some { s with lo := r.1, up := r.2 } }

/-- `mkernel_curvilinear_move_node_line_shift`, `MeshKernel.cpp:4650-4672`. -/
def sessionMoveNode (w : World K) (v : Nat × Nat) (p : Pt K) : Res (World K) := do
  let s ← w.follow
  let g ← w.at s.grid
  let r ← shiftMoveNode g s.lines s.lo s.up v p
  .ok { w with grids := w.grids.set s.grid r.1 }

/-- `mkernel_curvilinear_line_shift`, `MeshKernel.cpp:4674-4696`. -/
def sessionShift (geo : Geo K) (eps : K) (w : World K) : Res (World K) :=
  match w.session with
  | none => .throw
  | some s => do
    let g ← w.at s.grid
    let r ← shift geo eps s.orig g s.lines s.lo s.up
    .ok { w with grids := w.grids.set s.grid r.1 }

/-- `mkernel_curvilinear_finalize_line_shift`, `MeshKernel.cpp:4698-4715`. -/
def endShift (w : World K) : Res (World K) := .ok { w with session := none }

/-- `mkernel_curvilinear_set`, `MeshKernel.cpp:4588-4622`: a new grid object becomes the current one. -/
def setGrid (w : World K) (g : Grid (Pt K)) : Res (World K) :=
  .ok { w with grids := w.grids ++ [g], current := w.grids.length }

end Verif.CurviLine
