import Verif.CurviLine.Spec
import Verif.Curvi.EditProps
/-!
# What mirroring a boundary line should do

Seen from a side of the grid, a node has a depth (0 at that side) and a position along the side.
-/
namespace Verif.CurviLine
open Verif.Curvi

variable {P : Type}

/-- The number of lines parallel to the side. -/
def Side.depth (s : Side) (g : Grid P) : Nat :=
  match s with
  | .bottom | .top => g.numN
  | .left | .right => g.numM

/-- The number of nodes along the side. -/
def Side.width (s : Side) (g : Grid P) : Nat :=
  match s with
  | .bottom | .top => g.numM
  | .left | .right => g.numN

/-- The indices of the node at depth `k` and position `i`. -/
def Side.place (s : Side) (g : Grid P) (k i : Nat) : Nat × Nat :=
  match s with
  | .bottom => (k, i)
  | .top => (g.numN - 1 - k, i)
  | .left => (i, k)
  | .right => (i, g.numM - 1 - k)

/-- The node at depth `k` and position `i`. -/
def Side.node (s : Side) (g : Grid P) (k i : Nat) : P := g.node (s.place g k i).1 (s.place g k i).2

/-- The line lies on the side. -/
def Line.OnSide (l : Line) (g : Grid P) (s : Side) : Prop :=
  l.first = s.place g 0 l.start ∧ l.last = s.place g 0 l.stop ∧ l.start < l.stop ∧ l.stop < s.width g

/-- The nodes hidden just outside the side, if any, are missing. -/
def Side.Fresh [PointLike P] (s : Side) (g : Grid P) : Prop :=
  match s with
  | .bottom => 0 < g.sn → ∀ m, m < g.numM → g.cell (g.sn - 1) (m + g.sm) = inv
  | .top => 0 < g.en → ∀ m, m < g.numM → g.cell (g.numN + g.sn) (m + g.sm) = inv
  | .left => 0 < g.sm → ∀ n, n < g.numN → g.cell (n + g.sn) (g.sm - 1) = inv
  | .right => 0 < g.em → ∀ n, n < g.numN → g.cell (n + g.sn) (g.numM + g.sm) = inv

/-- Looking one line beyond the side stays in the node matrix. -/
def Side.Safe (s : Side) (g : Grid P) : Prop :=
  match s with
  | .bottom | .left => True
  | .top => g.sn = 0 ∨ 0 < g.en
  | .right => g.sm = 0 ∨ 0 < g.em

/-- The two grids look the same: size and nodes. -/
def SameVisible (g h : Grid P) : Prop :=
  h.numN = g.numN ∧ h.numM = g.numM ∧ ∀ n m, n < g.numN → m < g.numM → h.node n m = g.node n m

variable {K : Type} [Field K] [LinearOrder K]

/-- The mirrored node at position `i`: as far beyond the boundary node as the second one is before it, times `f`. -/
def Side.image (s : Side) (g : Grid (Pt K)) (f : K) (i : Nat) : Pt K :=
  add (s.node g 0 i) (scale (sub (s.node g 0 i) (s.node g 1 i)) f)

/-- The grid has one line more at the side: mirrored nodes beside the line, missing nodes elsewhere; the other lines are
those of the grid before. -/
structure Mirrored (g g' : Grid (Pt K)) (s : Side) (l : Line) (f : K) : Prop where
  depth : s.depth g' = s.depth g + 1
  width : s.width g' = s.width g
  kept : ∀ k i, k < s.depth g → i < s.width g → s.node g' (k + 1) i = s.node g k i
  new : ∀ i, i < s.width g → s.node g' 0 i = if l.start ≤ i ∧ i ≤ l.stop then s.image g f i else inv

end Verif.CurviLine
