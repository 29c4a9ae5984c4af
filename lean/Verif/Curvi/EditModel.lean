import Verif.Curvi.CleanModel
/-!
# Curvilinear grids: moving and deleting nodes, saved blocks, undo

Models `CurvilinearGridBlock.cpp`, `UndoActions/CurvilinearGridBlockUndoAction.cpp`,
`UndoActions/CurvilinearGridRefinementUndoAction.cpp`, `CurvilinearGridDeleteInterior.cpp`,
`CurvilinearGridDeleteExterior.cpp` and parts of `CurvilinearGrid.cpp`.

The bookkeeping of the action base class (initial, committed, restored) is in `Undo.lean`. Of
`ComputeGridNodeTypes` only the removal of loose nodes (`clean`) changes nodes; the types themselves are left out.
-/
namespace Verif.Curvi
variable {P : Type}

/-- `CurvilinearGridBlock`: the corners (the top right one exclusive) and the saved nodes. -/
structure Block (P : Type) where
  bn : Nat
  bm : Nat
  tn : Nat
  tm : Nat
  nodes : Grid P

/-- `m_gridNodes(r, c) = …` for loop indices inside the matrix. -/
def putNode (b : Grid P) (r c : Nat) (p : P) : Grid P := { b with cell := upd b.cell r c p }

/-- Loop body of `CopyFrom`, `CurvilinearGridBlock.cpp:23`. -/
def copyNode (g : Grid P) (bn bm r c : Nat) (b : Grid P) : Res (Grid P) := do
  let p ← getNode g (r + bn) (c + bm)
  .ok (putNode b r c p)

/-- `CurvilinearGridBlockUndoAction::Create` with corners, `CurvilinearGridBlockUndoAction.cpp:4-9, 18-24`, with the
constructor and `CopyFrom`, `CurvilinearGridBlock.cpp:5-26`. Corners in the wrong order (the subtraction wraps around)
are outside this model. -/
def saveBlock [PointLike P] (g : Grid P) (bn bm tn tm : Nat) : Res (Block P) :=
  if bn ≤ tn ∧ bm ≤ tm then do
    let nodes ← forRange 0 (tn - bn) (fun r => forRange 0 (tm - bm) (copyNode g bn bm r))
      ⟨tn - bn, tm - bm, fun _ _ => inv, 0, 0, 0, 0⟩
    .ok ⟨bn, bm, tn, tm, nodes⟩
  else .ub

/-- Loop body of `Swap`, `CurvilinearGridBlock.cpp:37`. -/
def swapNode (bn bm r c : Nat) (s : Grid P × Grid P) : Res (Grid P × Grid P) := do
  let p ← getNode s.2 (r + bn) (c + bm)
  let g ← setNode s.2 (r + bn) (c + bm) (s.1.cell r c)
  .ok (putNode s.1 r c p, g)

/-- `Swap`, `CurvilinearGridBlock.cpp:28-40`. -/
def swapBlock (b : Block P) (g : Grid P) : Res (Block P × Grid P) := do
  let s ← forRange 0 (b.tn - b.bn) (fun r => forRange 0 (b.tm - b.bm) (swapNode b.bn b.bm r)) (b.nodes, g)
  .ok ({ b with nodes := s.1 }, s.2)

/-- The undo actions of curvilinear grids: `ResetCurvilinearNodeAction`, `CurvilinearGridBlockUndoAction`,
`CurvilinearGridRefinementUndoAction` (nodes and offsets) and `CompoundUndoAction`. -/
inductive Act (P : Type) where
  | reset (n m : Nat) (initial updated : P) (recalculate : Bool)
  | block (b : Block P)
  | whole (saved : Grid P)
  | compound (l : List (Block P))

variable [PointLike P]

/-- `RestoreAction(CurvilinearGridBlockUndoAction&)` and `CommitAction`, `CurvilinearGrid.cpp:1165-1179`. -/
def swapAndClean (b : Block P) (g : Grid P) : Res (Block P × Grid P) := do
  let s ← swapBlock b g
  let g' ← clean s.2
  .ok (s.1, g')

/-- The compound of block actions in the given order, `CompoundUndoAction.cpp:26-32`. -/
def swapAll : List (Block P) → Grid P → Res (List (Block P) × Grid P)
  | [], g => .ok ([], g)
  | b :: l, g => do
    let s ← swapAndClean b g
    let t ← swapAll l s.2
    .ok (s.1 :: t.1, t.2)

/-- `RestoreAction(ResetCurvilinearNodeAction)`, `CurvilinearGrid.cpp:1199-1207`, and `CommitAction`,
`CurvilinearGrid.cpp:1209-1217`. -/
def resetNode (g : Grid P) (n m : Nat) (p : P) (recalculate : Bool) : Res (Grid P) := do
  let g' ← setNode g n m p
  if recalculate then clean g' else .ok g'

/-- `RestoreAction(CurvilinearGridRefinementUndoAction&)` and `CommitAction`, `CurvilinearGrid.cpp:1181-1197`, with
`CurvilinearGridRefinementUndoAction.cpp:12-17`: nodes and offsets are exchanged. -/
def swapWhole (saved g : Grid P) : Res (Grid P × Grid P) := do
  let g' ← clean saved
  .ok (g, g')

/-- Undo. A compound action goes through its parts from the last to the first, `CompoundUndoAction.cpp:34-40`. -/
def Act.restore : Act P → Grid P → Res (Act P × Grid P)
  | .reset n m i u r, g => do
    let g' ← resetNode g n m i r
    .ok (.reset n m i u r, g')
  | .block b, g => do
    let s ← swapAndClean b g
    .ok (.block s.1, s.2)
  | .whole w, g => do
    let s ← swapWhole w g
    .ok (.whole s.1, s.2)
  | .compound l, g => do
    let s ← swapAll l.reverse g
    .ok (.compound s.1.reverse, s.2)

/-- Redo. -/
def Act.commit : Act P → Grid P → Res (Act P × Grid P)
  | .reset n m i u r, g => do
    let g' ← resetNode g n m u r
    .ok (.reset n m i u r, g')
  | .block b, g => do
    let s ← swapAndClean b g
    .ok (.block s.1, s.2)
  | .whole w, g => do
    let s ← swapWhole w g
    .ok (.whole s.1, s.2)
  | .compound l, g => do
    let s ← swapAll l g
    .ok (.compound s.1, s.2)

/-- `MoveNode`, `CurvilinearGrid.cpp:1066-1080`. -/
def moveNode (g : Grid P) (n m : Nat) (dest : P) : Res (Grid P × Act P) :=
  if n = missing ∨ m = missing then .throw
  else do
    let old ← getNode g n m
    let g' ← setNode g n m dest
    .ok (g', .reset n m old dest false)

/-- `DeleteNode`, `CurvilinearGrid.cpp:1042-1064`, for the node the search found. -/
def deleteNode (g : Grid P) (n m : Nat) : Res (Grid P × Option (Act P)) :=
  if n = missing ∨ m = missing then .ok (g, none)
  else do
    let old ← getNode g n m
    let g' ← setNode g n m inv
    let g'' ← clean g'
    .ok (g'', some (.reset n m old inv true))

/-- `ComputeBlockFromCornerPoints`, `CurvilinearGrid.cpp:346-368`. -/
def blockFromCorners (g : Grid P) (a b : Nat × Nat) : Res ((Nat × Nat) × (Nat × Nat)) :=
  let lo := (min a.1 b.1, min a.2 b.2)
  let up := (max a.1 b.1, max a.2 b.2)
  if (lo.1 = missing ∨ lo.2 = missing) ∨ (up.1 = missing ∨ up.2 = missing) then .throw
  else if lo.2 ≥ g.numM ∨ lo.1 ≥ g.numN then .throw
  else if up.2 ≥ g.numM ∨ up.1 ≥ g.numN then .throw
  else .ok (lo, up)

/-- `SetBlock`, `CurvilinearGridAlgorithm.cpp:41-54`. -/
def setBlock (g : Grid P) (a b : Nat × Nat) : Res ((Nat × Nat) × (Nat × Nat)) := do
  let r ← blockFromCorners g a b
  if r.1 = r.2 then .throw else .ok r

/-- A loop setting the nodes of a block invalid. -/
def invalidateBlock (a b c d : Nat) (g : Grid P) : Res (Grid P) :=
  forRange a b (fun n => forRange c d (fun m h => setNode h n m inv)) g

/-- `CurvilinearGridDeleteInterior::Compute`, `CurvilinearGridDeleteInterior.cpp:42-61`. -/
def deleteInterior (g : Grid P) (lo up : Nat × Nat) : Res (Grid P × Act P) := do
  let b ← saveBlock g lo.1 lo.2 up.1 up.2
  let g' ← invalidateBlock (lo.1 + 1) up.1 (lo.2 + 1) up.2 g
  .ok (g', .block b)

/-- `CurvilinearGridDeleteExterior::Compute`, `CurvilinearGridDeleteExterior.cpp:43-97`. -/
def deleteExterior (g : Grid P) (lo up : Nat × Nat) : Res (Grid P × Act P) := do
  let b1 ← saveBlock g 0 0 g.numN lo.2
  let b2 ← saveBlock g 0 lo.2 lo.1 (up.2 + 1)
  let b3 ← saveBlock g up.1 lo.2 g.numN (up.2 + 1)
  let b4 ← saveBlock g 0 (up.2 + 1) g.numN g.numM
  let g1 ← invalidateBlock 0 g.numN 0 lo.2 g
  let g2 ← invalidateBlock 0 lo.1 lo.2 (up.2 + 1) g1
  let g3 ← invalidateBlock (up.1 + 1) g.numN lo.2 (up.2 + 1) g2
  let g4 ← invalidateBlock 0 g.numN (up.2 + 1) g.numM g3
  .ok (g4, .compound [b1, b2, b3, b4])

/-- `mkernel_curvilinear_delete_interior`, `MeshKernel.cpp:4829-4864`, for the nodes the search found. -/
def apiDeleteInterior (g : Grid P) (a b : Nat × Nat) : Res (Grid P × Act P) :=
  if !g.isValid then .throw
  else do
    let r ← setBlock g a b
    deleteInterior g r.1 r.2

/-- `mkernel_curvilinear_delete_exterior`, `MeshKernel.cpp:4792-4827`, for the nodes the search found. -/
def apiDeleteExterior (g : Grid P) (a b : Nat × Nat) : Res (Grid P × Act P) :=
  if !g.isValid then .throw
  else do
    let r ← setBlock g a b
    deleteExterior g r.1 r.2

end Verif.Curvi
