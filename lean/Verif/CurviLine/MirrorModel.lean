import Verif.CurviLine.Model
/-!
# Curvilinear grids: mirroring a boundary line

Models `CurvilinearGridLineMirror.cpp` and, of `CurvilinearGrid.cpp`, the node types, `GetBoundaryGridLineType`,
`AddGridLineAtBoundary` and the undo of an added line.
-/
namespace Verif.CurviLine
open Verif.Curvi

section
variable {P : Type} [PointLike P]

/-- `NodeType`, `CurvilinearGridUtilities.hpp:35-47`. -/
inductive NodeType where
  | bottomLeft | upperLeft | bottomRight | upperRight | left | right | bottom | up | internal | invalid
  deriving DecidableEq

/-- `IsFaceMaskValid` after `ComputeGridFacesMask`, `CurvilinearGrid.cpp:370-389`: the four nodes are valid. -/
def faceOk (g : Grid P) (n m : Nat) : Bool :=
  valid (g.cell (n + g.sn) (m + g.sm)) && valid (g.cell (n + g.sn) (m + 1 + g.sm)) &&
    valid (g.cell (n + 1 + g.sn) (m + g.sm)) && valid (g.cell (n + 1 + g.sn) (m + 1 + g.sm))

/-- The type of a node whose four faces exist, from which of them are valid, `CurvilinearGrid.cpp:534-648`: the upper
right, upper left, lower left and lower right one. -/
def innerType : Bool → Bool → Bool → Bool → NodeType
  | true, true, true, true => .internal
  | false, true, true, true => .bottomLeft
  | true, false, true, true => .bottomRight
  | true, true, false, true => .upperRight
  | true, true, true, false => .upperLeft
  | true, true, false, false => .bottom
  | true, false, false, true => .left
  | false, false, true, true => .up
  | false, true, true, false => .right
  | true, false, false, false => .bottomLeft
  | false, true, false, false => .bottomRight
  | false, false, true, false => .upperRight
  | false, false, false, true => .upperLeft
  | _, _, _, _ => .invalid

/-- The loop body of `ComputeGridNodeTypes`, `CurvilinearGrid.cpp:442-648`; the reads are in range by the loop bounds
and the tests before them. -/
def nodeType (g : Grid P) (n m : Nat) : NodeType :=
  let v := fun a b => valid (g.cell (a + g.sn) (b + g.sm))
  if !v n m then .invalid
  else if m = 0 then
    if n = 0 then .bottomLeft
    else if n = g.numN - 1 then .bottomRight
    else if !v (n - 1) m then .bottomLeft
    else if !v (n + 1) m then .bottomRight
    else .bottom
  else if m = g.numM - 1 then
    if n = 0 then .upperLeft
    else if n = g.numN - 1 then .upperRight
    else if !v (n - 1) m then .upperLeft
    else if !v (n + 1) m then .upperRight
    else .up
  else if n = 0 then
    if !v n (m - 1) then .bottomLeft
    else if !v n (m + 1) then .upperRight
    else .left
  else if n = g.numN - 1 then
    if !v n (m - 1) then .bottomRight
    else if !v n (m + 1) then .upperRight
    else .right
  else innerType (faceOk g n m) (faceOk g (n - 1) m) (faceOk g (n - 1) (m - 1)) (faceOk g n (m - 1))

/-- `BoundaryGridLineType`, `CurvilinearGrid.hpp:63-69`. -/
inductive Side where
  | left | right | bottom | top
  deriving DecidableEq

/-- `GetBoundaryGridLineType`, `CurvilinearGrid.cpp:796-843`, for nodes in the grid and up to date node types. -/
def boundaryType (g : Grid P) (a b : Nat × Nat) : Res Side :=
  let ta := nodeType g a.1 a.2
  let tb := nodeType g b.1 b.2
  if ta = .internal ∨ ta = .invalid ∨ tb = .internal ∨ tb = .invalid then .throw
  else if ta = .bottom ∧ tb = .bottom then .ok .left
  else if ta = .up ∧ tb = .up then .ok .right
  else if ta = .left ∧ tb = .left then .ok .bottom
  else if ta = .right ∧ tb = .right then .ok .top
  else if a.2 = b.2 then
    if a.2 + 1 < g.cols then do
      let p ← getNode g a.1 (a.2 + 1)
      if !valid p then .ok .right else do
        let q ← getNode g b.1 (b.2 + 1)
        .ok (if valid q then .left else .right)
    else .ok .right
  else if a.1 = b.1 then
    if a.1 + 1 < g.rows then do
      let p ← getNode g (a.1 + 1) a.2
      if !valid p then .ok .top else do
        let q ← getNode g (b.1 + 1) b.2
        .ok (if valid q then .bottom else .top)
    else .ok .top
  else .throw

/-- One line more at the lower end of the rows: a hidden one is shown again, otherwise a row of invalid nodes is
inserted, `CurvilinearGrid.cpp:719-726`. -/
def addBottom (g : Grid P) : Grid P :=
  if g.sn = 0 then { g with rows := g.rows + 1, cell := fun i j => if i = 0 then inv else g.cell (i - 1) j }
  else { g with sn := g.sn - 1 }

/-- One line more at the upper end of the rows, `CurvilinearGrid.cpp:738-745`. -/
def addTop (g : Grid P) : Grid P :=
  if g.en = 0 then { g with rows := g.rows + 1, cell := fun i j => if i = g.rows then inv else g.cell i j }
  else { g with en := g.en - 1 }

/-- One line more at the upper end of the columns, `CurvilinearGrid.cpp:757-764`. -/
def addRight (g : Grid P) : Grid P :=
  if g.em = 0 then { g with cols := g.cols + 1, cell := fun i j => if j = g.cols then inv else g.cell i j }
  else { g with em := g.em - 1 }

/-- One line more at the lower end of the columns, `CurvilinearGrid.cpp:778-785`. -/
def addLeft (g : Grid P) : Grid P :=
  if g.sm = 0 then { g with cols := g.cols + 1, cell := fun i j => if j = 0 then inv else g.cell i (j - 1) }
  else { g with sm := g.sm - 1 }

/-- `AddGridLineAtBoundary`, `CurvilinearGrid.cpp:681-794`, for two nodes of the grid: the grid and the side at which a
line was added. -/
def addGridLine (g : Grid P) (a b : Nat × Nat) : Res (Grid P × Option Side) := do
  let p ← getNode g a.1 a.2
  let q ← getNode g b.1 b.2
  let side ← boundaryType g a b
  if valid p && valid q then
    match side with
    | .bottom => .ok (if a.1 = 0 ∨ b.1 = 0 then (addBottom g, some .bottom) else (g, none))
    | .top => .ok (if a.1 = g.numN - 1 ∨ b.1 = g.numN - 1 then (addTop g, some .top) else (g, none))
    | .right => .ok (if a.2 = g.numM - 1 ∨ b.2 = g.numM - 1 then (addRight g, some .right) else (g, none))
    | .left => .ok (if a.2 = 0 ∨ b.2 = 0 then (addLeft g, some .left) else (g, none))
  else .ok (g, none)

/-- `RestoreAction(AddGridLineUndoAction)`, `CurvilinearGrid.cpp:1141-1153`, with the offsets given in
`CurvilinearGrid.cpp:728, 747, 766, 787`. -/
def hideLine (g : Grid P) : Side → Res (Grid P)
  | .bottom => clean { g with sn := g.sn + 1 }
  | .top => clean { g with en := g.en + 1 }
  | .right => clean { g with em := g.em + 1 }
  | .left => clean { g with sm := g.sm + 1 }

/-- `CommitAction(AddGridLineUndoAction)`, `CurvilinearGrid.cpp:1155-1163`. -/
def showLine (g : Grid P) : Side → Res (Grid P)
  | .bottom => clean { g with sn := g.sn - 1 }
  | .top => clean { g with en := g.en - 1 }
  | .right => clean { g with em := g.em - 1 }
  | .left => clean { g with sm := g.sm - 1 }

/-- The undo action of mirroring: the added line, if any, and the saved block, `CurvilinearGridLineMirror.cpp:69, 101`.
`CompoundUndoAction::Add` leaves out an empty action, `CompoundUndoAction.cpp:13-24`. -/
structure MirrorAct (P : Type) where
  line : Option Side
  block : Block P

/-- Undo: the parts from the last to the first. -/
def MirrorAct.restore (u : MirrorAct P) (g : Grid P) : Res (MirrorAct P × Grid P) := do
  let s ← swapAndClean u.block g
  match u.line with
  | none => .ok (⟨none, s.1⟩, s.2)
  | some side => do
    let g' ← hideLine s.2 side
    .ok (⟨some side, s.1⟩, g')

/-- Redo: the parts from the first to the last. -/
def MirrorAct.commit (u : MirrorAct P) (g : Grid P) : Res (MirrorAct P × Grid P) :=
  match u.line with
  | none => do
    let s ← swapAndClean u.block g
    .ok (⟨none, s.1⟩, s.2)
  | some side => do
    let g' ← showLine g side
    let s ← swapAndClean u.block g'
    .ok (⟨some side, s.1⟩, s.2)

end

variable {K : Type} [Field K] [LinearOrder K]

/-- The corners of the saved block, `CurvilinearGridLineMirror.cpp:79-99`. -/
def mirrorBlock {P : Type} (g : Grid P) (l : Line) : Side → (Nat × Nat) × (Nat × Nat)
  | .bottom => ((0, l.start), (1, l.stop + 1))
  | .top => ((g.numN - 1, l.start), (g.numN, l.stop + 1))
  | .right => ((l.start, g.numM - 1), (l.stop + 1, g.numM))
  | .left => ((0, l.start), (l.stop + 1, l.start + 1))

/-- Which node is written and which two are read, `CurvilinearGridLineMirror.cpp:105-126`. -/
def mirrorNodes {P : Type} (g : Grid P) (i : Nat) : Side → (Nat × Nat) × (Nat × Nat) × (Nat × Nat)
  | .bottom => ((0, i), (1, i), (2, i))
  | .top => ((g.numN - 1, i), (g.numN - 1 - 1, i), (g.numN - 1 - 2, i))
  | .right => ((i, g.numM - 1), (i, g.numM - 1 - 1), (i, g.numM - 1 - 2))
  | .left => ((i, 0), (i, 1), (i, 2))

/-- The body of the loop, `CurvilinearGridLineMirror.cpp:103-127`. -/
def mirrorNode (f : K) (side : Side) (i : Nat) (g : Grid (Pt K)) : Res (Grid (Pt K)) := do
  let r := mirrorNodes g i side
  let p ← getNode g r.2.1.1 r.2.1.2
  let q ← getNode g r.2.2.1 r.2.2.2
  setNode g r.1.1 r.1.2 (add (scale p (1 + f)) (scale q (-f)))

/-- `Compute`, `CurvilinearGridLineMirror.cpp:48-130`, with the constructor (lines 39-46). -/
def mirror (g : Grid (Pt K)) (lines : List Line) (f : K) : Res (Grid (Pt K) × MirrorAct (Pt K)) :=
  if f ≤ 0 then .throw
  else match lines with
    | [] => .throw
    | l :: _ =>
      if !g.isValid then .throw
      else do
        let g1 ← clean g
        let side ← boundaryType g1 l.first l.last
        let r ← addGridLine g1 l.first l.last
        let g2 ← clean r.1
        let c := mirrorBlock g2 l side
        let b ← saveBlock g2 c.1.1 c.1.2 c.2.1 c.2.2
        let g3 ← forRange l.start (l.stop + 1) (mirrorNode f side) g2
        .ok (g3, ⟨r.2, b⟩)

/-- `mkernel_curvilinear_line_mirror`, `MeshKernel.cpp:4904-4940`, for the nodes the search found. -/
def apiMirror (g : Grid (Pt K)) (f : K) (a b : Nat × Nat) : Res (Grid (Pt K) × MirrorAct (Pt K)) :=
  if !g.isValid then .throw
  else if f ≤ 0 then .throw
  else do
    let lines ← setLine g [] a b
    mirror g lines f

end Verif.CurviLine
