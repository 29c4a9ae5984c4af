import Verif.CurviLine.Spec
import Verif.Curvi.CleanLemmas
import Verif.Smooth.Model
/-!
# What smoothing should do

Stated with the nodes of the grid, without the node types and loops of the model.
-/
namespace Verif.Smooth
open Verif.Curvi Verif.CurviLine

variable {K : Type} [Field K] [LinearOrder K]

/-! ## Inner nodes and edges -/

section
variable {P : Type} [PointLike P]

/-- A node with four faces around it. -/
def Inner (g : Grid P) (n m : Nat) : Prop :=
  (0 < n ∧ n + 1 < g.numN) ∧ (0 < m ∧ m + 1 < g.numM) ∧ faceValid g n m = true ∧ faceValid g (n - 1) m = true ∧
    faceValid g n (m - 1) = true ∧ faceValid g (n - 1) (m - 1) = true

/-- A node of an edge of the grid along the n-direction: it has both neighbours along n, and is in the first or last column
or has two faces on one side and none on the other. -/
def EdgeN (g : Grid P) (n m : Nat) : Prop :=
  (0 < n ∧ n + 1 < g.numN) ∧ valid (g.node n m) = true ∧ valid (g.node (n - 1) m) = true ∧ valid (g.node (n + 1) m) = true ∧
    (m = 0 ∨ m + 1 = g.numM ∨
      (m + 1 < g.numM ∧ faceValid g n m = faceValid g (n - 1) m ∧ faceValid g n (m - 1) = faceValid g (n - 1) (m - 1) ∧
        faceValid g n m ≠ faceValid g n (m - 1)))

/-- The grid is on the side of larger m. -/
def aboveN (g : Grid P) (n m : Nat) : Bool := decide (m = 0) || (decide (m + 1 < g.numM) && faceValid g n m)

/-- A node of an edge of the grid along the m-direction. -/
def EdgeM (g : Grid P) (n m : Nat) : Prop :=
  (0 < m ∧ m + 1 < g.numM) ∧ valid (g.node n m) = true ∧ valid (g.node n (m - 1)) = true ∧ valid (g.node n (m + 1)) = true ∧
    (n = 0 ∨ n + 1 = g.numN ∨
      (n + 1 < g.numN ∧ faceValid g n m = faceValid g n (m - 1) ∧ faceValid g (n - 1) m = faceValid g (n - 1) (m - 1) ∧
        faceValid g n m ≠ faceValid g (n - 1) m))

/-- The grid is on the side of larger n. -/
def aboveM (g : Grid P) (n m : Nat) : Bool := decide (n = 0) || (decide (n + 1 < g.numN) && faceValid g n m)

end

/-- Between the corners of a block. -/
def Within (lo up : Nat × Nat) (n m : Nat) : Prop := (lo.1 ≤ n ∧ n ≤ up.1) ∧ (lo.2 ≤ m ∧ m ≤ up.2)

/-! ## New positions -/

/-- Half the node and half the mean of its four neighbours. -/
def relaxed (c : Nat → Nat → Pt K) (n m : Nat) : Pt K :=
  ⟨(c n m).x / 2 + ((c (n - 1) m).x + (c (n + 1) m).x + (c n (m - 1)).x + (c n (m + 1)).x) / 8,
    (c n m).y / 2 + ((c (n - 1) m).y + (c (n + 1) m).y + (c n (m - 1)).y + (c n (m + 1)).y) / 8⟩

/-- Half the node and half the mean of the three others: where a node of an edge would like to be. -/
def goal (p a b c : Pt K) : Pt K := ⟨p.x / 2 + (a.x + b.x + c.x) / 6, p.y / 2 + (a.y + b.y + c.y) / 6⟩

/-- The point at `r` on the way from `p` to `a`. -/
def onWay (p a : Pt K) (r : K) : Pt K := ⟨p.x + r * (a.x - p.x), p.y + r * (a.y - p.y)⟩

/-- The square of a distance. -/
def dist2 (p a : Pt K) : K := (a.x - p.x) ^ 2 + (a.y - p.y) ^ 2

/-- The foot of `q` on the line through `p` and `a` is at `r`. -/
def FootAt (p a q : Pt K) (r : K) : Prop := a ≠ p ∧ r * dist2 p a = (q.x - p.x) * (a.x - p.x) + (q.y - p.y) * (a.y - p.y)

/-- Between the ends. -/
def Unit (r : K) : Prop := 0 ≤ r ∧ r ≤ 1

/-- The place on the edge `a`, `p`, `b` for a node `p` that would like to be at `q`: the foot on one of the two segments, the
one farther from `p` if there are two; halfway between the feet on the two lines if both are beyond the segments. -/
def Slid (p a b q z : Pt K) : Prop :=
  (∃ r, FootAt p a q r ∧ Unit r ∧ z = onWay p a r ∧ ∀ s, FootAt p b q s → Unit s → s ^ 2 * dist2 p b ≤ r ^ 2 * dist2 p a) ∨
  (∃ s, FootAt p b q s ∧ Unit s ∧ z = onWay p b s ∧ ∀ r, FootAt p a q r → Unit r → r ^ 2 * dist2 p a < s ^ 2 * dist2 p b) ∨
  (∃ r s, FootAt p a q r ∧ FootAt p b q s ∧ ¬ Unit r ∧ ¬ Unit s ∧
    z = ⟨((onWay p a r).x + (onWay p b s).x) / 2, ((onWay p a r).y + (onWay p b s).y) / 2⟩)

/-- One round from `g` to `g'`; which nodes are inner nodes or on an edge is decided in `g0`. -/
structure Step (g0 : Grid (Pt K)) (lo up : Nat × Nat) (g g' : Grid (Pt K)) : Prop where
  shape : SameShape g g'
  hidden : ∀ i j, ¬ (g.sn ≤ i ∧ i < g.sn + g.numN ∧ g.sm ≤ j ∧ j < g.sm + g.numM) → g'.cell i j = g.cell i j
  stays : ∀ n m, n < g.numN → m < g.numM → ¬ (Within lo up n m ∧ (Inner g0 n m ∨ EdgeN g0 n m ∨ EdgeM g0 n m)) →
    g'.node n m = g.node n m
  inner : ∀ n m, Within lo up n m → Inner g0 n m → g'.node n m = relaxed g.node n m
  edgeN : ∀ n m, n < g.numN → m < g.numM → Within lo up n m → EdgeN g0 n m →
    Slid (g.node n m) (g.node (n - 1) m) (g.node (n + 1) m)
      (goal (g.node n m) (g.node (n - 1) m) (g.node (n + 1) m) (g.node n (if aboveN g0 n m then m + 1 else m - 1))) (g'.node n m)
  edgeM : ∀ n m, n < g.numN → m < g.numM → Within lo up n m → EdgeM g0 n m →
    Slid (g.node n m) (g.node n (m - 1)) (g.node n (m + 1))
      (goal (g.node n m) (g.node n (m - 1)) (g.node n (m + 1)) (g.node (if aboveM g0 n m then n + 1 else n - 1) m)) (g'.node n m)

/-- `k` rounds. -/
inductive Steps (g0 : Grid (Pt K)) (lo up : Nat × Nat) : Nat → Grid (Pt K) → Grid (Pt K) → Prop
  | zero (g) : Steps g0 lo up 0 g g
  | next {k g g' g''} : Step g0 lo up g g' → Steps g0 lo up k g' g'' → Steps g0 lo up (k + 1) g g''

/-- The corners of a block given by two nodes. -/
def low (a b : Nat × Nat) : Nat × Nat := (min a.1 b.1, min a.2 b.2)

/-- The other corner. -/
def high (a b : Nat × Nat) : Nat × Nat := (max a.1 b.1, max a.2 b.2)

/-- Two nodes of the grid that make a block. -/
def BlockOk {P : Type} (g : Grid P) (a b : Nat × Nat) : Prop :=
  (a.1 < g.numN ∧ a.2 < g.numM) ∧ (b.1 < g.numN ∧ b.2 < g.numM) ∧ a ≠ b

/-! ## Smoothing along a line -/

/-- May move when smoothing along n: an inner node or a node of an edge along n; and the same for m. -/
def Free {P : Type} [PointLike P] (alongN : Bool) (g : Grid P) (n m : Nat) : Prop :=
  Inner g n m ∨ (if alongN then EdgeN g n m else EdgeM g n m)

/-- The neighbour before, along the line. -/
def prevOf (c : Nat → Nat → Pt K) (alongN : Bool) (n m : Nat) : Pt K := if alongN then c (n - 1) m else c n (m - 1)

/-- The neighbour after, along the line. -/
def nextOf (c : Nat → Nat → Pt K) (alongN : Bool) (n m : Nat) : Pt K := if alongN then c (n + 1) m else c n (m + 1)

/-- The farther of two neighbours, the second if they are equally far. -/
def farther (p a b : Pt K) : Pt K := if dist2 p b < dist2 p a then a else b

/-- How far towards it a node moves: a quarter of the relative difference of the squared distances, fading out across
the line; half the way if both neighbours are very near. -/
def pace (f : K) (p a b : Pt K) : K :=
  if dist2 p a < tiny ∧ dist2 p b < tiny then 1 / 2 else f * |dist2 p b - dist2 p a| / (4 * max (dist2 p a) (dist2 p b))

/-- One round along a line from `g` to `g'`. -/
structure DStep (geo : Geo K) (g0 : Grid (Pt K)) (l : Line) (lo up : Nat × Nat) (g g' : Grid (Pt K)) : Prop where
  shape : SameShape g g'
  hidden : ∀ i j, ¬ (g.sn ≤ i ∧ i < g.sn + g.numN ∧ g.sm ≤ j ∧ j < g.sm + g.numM) → g'.cell i j = g.cell i j
  stays : ∀ n m, n < g.numN → m < g.numM → ¬ (l.Zone lo up (n, m) ∧ Free l.alongN g0 n m) → g'.node n m = g.node n m
  moves : ∀ n m, n < g.numN → m < g.numM → l.Zone lo up (n, m) → Free l.alongN g0 n m →
    g'.node n m = onWay (g.node n m) (farther (g.node n m) (prevOf g.node l.alongN n m) (nextOf g.node l.alongN n m))
      (pace (fading geo (l.across (n, m)) l.const (l.across lo) (l.across up)) (g.node n m) (prevOf g.node l.alongN n m)
        (nextOf g.node l.alongN n m))

/-- `k` rounds. -/
inductive DSteps (geo : Geo K) (g0 : Grid (Pt K)) (l : Line) (lo up : Nat × Nat) : Nat → Grid (Pt K) → Grid (Pt K) → Prop
  | zero (g) : DSteps geo g0 l lo up 0 g g
  | next {k g g' g''} : DStep geo g0 l lo up g g' → DSteps geo g0 l lo up k g' g'' → DSteps geo g0 l lo up (k + 1) g g''

end Verif.Smooth
