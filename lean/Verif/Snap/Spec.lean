import Verif.Snap.Model
import Verif.CurviLine.Spec
import Verif.Curvi.EditProps
/-!
# What snapping a grid line should do

Stated with the nodes of the grid, without the loops of the model.  A grid line is a `Line` of `CurviLine`: it runs
`along` one direction, and nodes beside it have a coordinate `across` it.
-/
namespace Verif.Snap
open Verif.Curvi Verif.CurviLine
variable {K : Type} [Field K] [LinearOrder K]

/-- How far the effect reaches: the preset circle, or the box of the control points. -/
inductive Reach where
  | preset
  | box (lo up : Nat × Nat)

/-- The node of the line beside which `w` lies. -/
def foothold (l : Line) (w : Nat × Nat) : Nat × Nat := l.nodeAt (l.along w)

/-- `w` lies beside the line. -/
def Beside (l : Line) (w : Nat × Nat) : Prop := l.start ≤ l.along w ∧ l.along w ≤ l.stop

/-- `w` is close enough to the line, counted in nodes, to be moved. -/
def Reach.Within (r : Reach) (l : Line) (w : Nat × Nat) : Prop :=
  match r with
  | .preset => l.across w ≤ l.const + 80 ∧ l.const ≤ l.across w + 80
  | .box lo up => (l.across lo ≤ l.across w ∧ l.across w ≤ l.across up) ∧ l.across w ≤ l.const + 10000 ∧ l.const ≤ l.across w + 10000

/-- The part of the move of the node `p` of the line, which goes to `q`, that a node at `x` gets. -/
def presetShare (o : Means K) (p q x : Pt K) : K :=
  if o.geo.dist x p < max o.region (o.geo.dist q p) then o.hump (o.geo.dist x p) (max o.region (o.geo.dist q p)) else 0

/-- The part of the move of the line that node `w` gets. -/
def Reach.share (r : Reach) (o : Means K) (g : Grid (Pt K)) (l : Line) (w : Nat × Nat) : K :=
  match r with
  | .preset =>
    let v := foothold l w
    presetShare o (g.node v.1 v.2) (o.nearest (g.node v.1 v.2)) (g.node w.1 w.2)
  | .box lo up => fading o.geo (l.across w) l.const (l.across lo) (l.across up)

/-- The coordinates are equal, or differ by less than 1e-5 of the smaller one. -/
def Near (p q : Pt K) : Prop :=
  (p.x = q.x ∨ |p.x - q.x| < 1 / 100000 * min |p.x| |q.x|) ∧ (p.y = q.y ∨ |p.y - q.y| < 1 / 100000 * min |p.y| |q.y|)

open Classical in
/-- Where node `w` should be afterwards: a node of the line at the nearest point of the boundary; a node beside it within
reach moved by its part of the move of the line; every other node where it was. -/
noncomputable def target (o : Means K) (g : Grid (Pt K)) (l : Line) (r : Reach) (w : Nat × Nat) : Pt K :=
  let v := foothold l w
  let p := g.node v.1 v.2
  let q := o.nearest p
  let x := g.node w.1 w.2
  if Beside l w ∧ valid p = true then
    if w = v then q
    else if r.Within l w ∧ valid x = true ∧ ¬ Near p q ∧ 0 < r.share o g l w then add x (scale (sub q p) (r.share o g l w))
    else x
  else x

/-- The box around control nodes. -/
def around : Nat × Nat → List (Nat × Nat) → (Nat × Nat) × (Nat × Nat)
  | a, [] => (a, a)
  | a, b :: l => ((min a.1 (around b l).1.1, min a.2 (around b l).1.2), (max a.1 (around b l).2.1, max a.2 (around b l).2.2))

/-- The reach for the control nodes `a`, `b` of the line and further ones. -/
def reachOf (a b : Nat × Nat) : List (Nat × Nat) → Reach
  | [] => .preset
  | c :: l => .box (around a (b :: c :: l)).1 (around a (b :: c :: l)).2

/-- What is used of the parameters. -/
structure Means.Good (o : Means K) : Prop where
  geo : o.geo.Good
  hump_zero : ∀ b, 0 < b → o.hump 0 b = 1
  hump_nonneg : ∀ a b, 0 ≤ o.hump a b
  hump_le : ∀ a b, o.hump a b ≤ 1
  root_one : o.root 1 = 1

/-- The real functions. -/
noncomputable def realMeans (nearest : Pt ℝ → Pt ℝ) (region : ℝ) : Means ℝ where
  geo := realGeo
  root := Real.sqrt
  hump a b := 1 / 2 * (1 + Real.cos (Real.pi * a / b))
  nearest := nearest
  region := region

/-- The node lies in the grid. -/
def In {P : Type} (g : Grid P) (v : Nat × Nat) : Prop := v.1 < g.numN ∧ v.2 < g.numM

/-! ## Nearest point -/

/-- `r` lies on the stretch from `a` to `b`. -/
def Between (a b r : Pt K) : Prop :=
  ∃ t : K, 0 ≤ t ∧ t ≤ 1 ∧ r = ⟨a.x + t * (b.x - a.x), a.y + t * (b.y - a.y)⟩

/-- `r` lies on the land boundary: on a stretch between two different consecutive points, neither a separator. -/
def OnLand (land : List (Pt K)) (r : Pt K) : Prop :=
  ∃ (k : Nat) (a b : Pt K), land[k]? = some a ∧ land[k + 1]? = some b ∧ valid a = true ∧ valid b = true ∧ a ≠ b ∧ Between a b r

/-- The square of the distance. -/
def dist2 (p q : Pt K) : K := (q.x - p.x) ^ 2 + (q.y - p.y) ^ 2

/-- No point of the land boundary has a coordinate -999, which marks a missing point. -/
def Readable (land : List (Pt K)) : Prop := ∀ r, OnLand land r → valid r = true

end Verif.Snap
