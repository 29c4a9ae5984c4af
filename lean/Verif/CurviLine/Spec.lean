import Verif.CurviLine.MirrorModel
import Verif.Curvi.IndexLemmas
import Mathlib.Analysis.SpecialFunctions.Trigonometric.Basic
import Mathlib.Analysis.Real.Sqrt
/-!
# What shifting, attracting and mirroring a grid line should do

Stated with the nodes of the grid, without the loops of the model.
-/
namespace Verif.CurviLine
open Verif.Curvi

variable {K : Type} [Field K] [LinearOrder K]

/-- The node one step further in the n-direction, or the node itself where there is none. -/
def after (g : Grid (Pt K)) (n m : Nat) : Pt K :=
  if n + 1 < g.numN ∧ valid (g.node (n + 1) m) = true then g.node (n + 1) m else g.node n m

/-- The node one step back in the n-direction, or the node itself where there is none. -/
def before (g : Grid (Pt K)) (n m : Nat) : Pt K :=
  if 0 < n ∧ valid (g.node (n - 1) m) = true then g.node (n - 1) m else g.node n m

/-- The direction of increasing n at a node, of length one; zero where the neighbours coincide. -/
def direction (geo : Geo K) (g : Grid (Pt K)) (n m : Nat) : Pt K :=
  if geo.dist (after g n m) (before g n m) > 0 then
    scale (sub (after g n m) (before g n m)) (1 / geo.dist (after g n m) (before g n m))
  else ⟨0, 0⟩

/-- The direction turned by a quarter to the left. -/
def normal (geo : Geo K) (g : Grid (Pt K)) (n m : Nat) : Pt K := ⟨-(direction geo g n m).y, (direction geo g n m).x⟩

/-- The valid neighbours of a node along the n- or the m-direction. -/
def neighbours (g : Grid (Pt K)) (alongN : Bool) (n m : Nat) : List (Pt K) :=
  (if alongN then
    (if 0 < n then [g.node (n - 1) m] else []) ++ (if n + 1 < g.numN then [g.node (n + 1) m] else [])
  else
    (if 0 < m then [g.node n (m - 1)] else []) ++ (if m + 1 < g.numM then [g.node n (m + 1)] else [])).filter valid

/-- The mean distance to these neighbours, zero if there are none. -/
def meanDistance (geo : Geo K) (g : Grid (Pt K)) (alongN : Bool) (n m : Nat) : K :=
  ((neighbours g alongN n m).map (geo.dist (g.node n m))).sum / ((neighbours g alongN n m).length : K)

/-- How much of the effect at the line is left at coordinate `x`: all at the line, decreasing to nothing at the edge
`lo` or `up` of the zone on that side. -/
def fading (geo : Geo K) (x c lo up : Nat) : K :=
  if x ≤ c then (if c = lo then 1 else geo.bell (c - x) (c - lo)) else geo.bell (x - c) (up - c)

/-- The coordinate of a node across the line. -/
def Line.across (l : Line) (v : Nat × Nat) : Nat := if l.alongN then v.2 else v.1

/-- The coordinate of a node along the line. -/
def Line.along (l : Line) (v : Nat × Nat) : Nat := if l.alongN then v.1 else v.2

/-- A node of the line. -/
def Line.On (l : Line) (v : Nat × Nat) : Prop := l.across v = l.const ∧ l.start ≤ l.along v ∧ l.along v ≤ l.stop

/-- A node in the zone: beside the line and between the edges of the zone. -/
def Line.Zone (l : Line) (lo up : Nat × Nat) (v : Nat × Nat) : Prop :=
  (l.start ≤ l.along v ∧ l.along v ≤ l.stop) ∧ l.across lo ≤ l.across v ∧ l.across v ≤ l.across up

instance (l : Line) (v : Nat × Nat) : Decidable (l.On v) := by unfold Line.On; infer_instance

instance (l : Line) (lo up v : Nat × Nat) : Decidable (l.Zone lo up v) := by unfold Line.Zone; infer_instance

/-- How far an attracted node moves: up to the edge of the zone, in the direction across the line. -/
def pullSize (geo : Geo K) (g : Grid (Pt K)) (l : Line) (lo up : Nat × Nat) (f : K) (n m : Nat) : K :=
  f * meanDistance geo g l.alongN n m * fading geo (l.across (n, m)) l.const (l.across lo) (l.across up) *
    (if l.across (n, m) < l.const then 1 else -1)

/-- The move of an attracted node. -/
def pullBy (geo : Geo K) (g : Grid (Pt K)) (l : Line) (lo up : Nat × Nat) (f : K) (n m : Nat) : Pt K :=
  scale (if l.alongN then normal geo g n m else direction geo g n m) (pullSize geo g l lo up f n m)

/-- Where an attracted node moves to. -/
def pulled (geo : Geo K) (g : Grid (Pt K)) (l : Line) (lo up : Nat × Nat) (f : K) (n m : Nat) : Pt K :=
  add (g.node n m) (pullBy geo g l lo up f n m)

/-- No rows or columns hidden by undoing the addition of a line. -/
def NoHidden {P : Type} (g : Grid P) : Prop := g.sn = 0 ∧ g.sm = 0 ∧ g.en = 0 ∧ g.em = 0

/-- The line between two nodes of a grid line. -/
def lineOf (a b : Nat × Nat) : Line := ⟨(min a.1 b.1, min a.2 b.2), (max a.1 b.1, max a.2 b.2)⟩

/-! ## Shifting -/

/-- How far the node of the line at coordinate `j` has been moved. -/
def moveAt (orig g : Grid (Pt K)) (l : Line) (j : Nat) : Pt K :=
  sub (g.node (l.nodeAt j).1 (l.nodeAt j).2) (orig.node (l.nodeAt j).1 (l.nodeAt j).2)

/-- The node at coordinate `j` has been moved noticeably. -/
def knot (eps : K) (orig g : Grid (Pt K)) (l : Line) (j : Nat) : Bool :=
  !(decide (|(moveAt orig g l j).x| < eps) && decide (|(moveAt orig g l j).y| < eps))

/-- The last moved node up to `j`, or the first node of the line. -/
def lastKnot (moved : Nat → Bool) (start : Nat) : Nat → Nat
  | 0 => start
  | j + 1 => if j + 1 ≤ start then start else if moved (j + 1) then j + 1 else lastKnot moved start j

/-- The first moved node after `j` among the next `k` nodes, or the last of these. -/
def nextKnot (moved : Nat → Bool) : Nat → Nat → Nat
  | 0, j => j
  | k + 1, j => if moved (j + 1) then j + 1 else nextKnot moved k (j + 1)

/-- The move of the node at coordinate `j` of the line: interpolated between the moved nodes before and after it and the
ends of the line. -/
def share (eps : K) (orig g : Grid (Pt K)) (l : Line) (j : Nat) : Pt K :=
  if j = l.stop then moveAt orig g l j
  else
    let a := lastKnot (knot eps orig g l) l.start j
    let b := nextKnot (knot eps orig g l) (l.stop - j) j
    let t : K := ((j - a : Nat) : K) / ((b - a : Nat) : K)
    add (scale (moveAt orig g l a) (1 - t)) (scale (moveAt orig g l b) t)

/-- A vector in the frame of a node. -/
def inFrame (geo : Geo K) (g : Grid (Pt K)) (n m : Nat) (v : Pt K) : Pt K :=
  let u := direction geo g n m
  ⟨v.x * u.x + v.y * u.y, v.y * u.x - v.x * u.y⟩

/-- A vector given in the frame of a node. -/
def fromFrame (geo : Geo K) (g : Grid (Pt K)) (n m : Nat) (v : Pt K) : Pt K :=
  add (scale (direction geo g n m) v.x) (scale (normal geo g n m) v.y)

/-- Where a node of the zone moves to: by the move of the node of the line beside it, turned with the grid and fading
out. -/
def carried (geo : Geo K) (eps : K) (orig g : Grid (Pt K)) (l : Line) (lo up : Nat × Nat) (n m : Nat) : Pt K :=
  let j := l.along (n, m)
  let v := inFrame geo orig (l.nodeAt j).1 (l.nodeAt j).2 (share eps orig g l j)
  add (orig.node n m)
    (fromFrame geo orig n m (scale v (fading geo (l.across (n, m)) l.const (l.across lo) (l.across up))))

/-! ## The functions of the reals -/

/-- The Euclidean distance and the cosine bell. -/
noncomputable def realGeo : Geo ℝ :=
  ⟨fun p q => √((p.x - q.x) ^ 2 + (p.y - q.y) ^ 2), fun d m => (1 + Real.cos (Real.pi * d / m)) / 2⟩

/-- What the properties use of them. -/
structure Geo.Good (geo : Geo K) : Prop where
  dist_nonneg : ∀ p q, 0 ≤ geo.dist p q
  dist_sq : ∀ p q, geo.dist p q ^ 2 = (p.x - q.x) ^ 2 + (p.y - q.y) ^ 2
  bell_line : ∀ m, geo.bell 0 m = 1
  bell_edge : ∀ m, 0 < m → geo.bell m m = 0
  bell_nonneg : ∀ d m, 0 ≤ geo.bell d m
  bell_le : ∀ d m, geo.bell d m ≤ 1

end Verif.CurviLine
