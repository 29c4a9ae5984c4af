import Verif.InsertFace.Model
import Verif.CurviLine.MirrorSpec
/-!
# What inserting a face should do

An edge joins two neighbouring nodes. It has two sides; on each there is a face or not. A face is inserted on the side
where there is none: its two new nodes are the images of the nodes of the face on the other side.
-/
namespace Verif.InsertFace
open Verif.Curvi Verif.CurviLine

variable {P : Type} [PointLike P]

/-- The edge from `a` to `b`, which is parallel to the side. -/
def Edge (s : Side) (a b : Nat × Nat) : Prop :=
  match s with
  | .bottom | .top => b = (a.1, a.2 + 1)
  | .left | .right => b = (a.1 + 1, a.2)

/-- The node is in the grid. -/
def In (g : Grid P) (v : Nat × Nat) : Prop := v.1 < g.numN ∧ v.2 < g.numM

/-- `w` is the neighbour of `v` on the given side. -/
def Beside (s : Side) (v w : Nat × Nat) : Prop :=
  match s with
  | .bottom => v = (w.1 + 1, w.2)
  | .top => w = (v.1 + 1, v.2)
  | .left => v = (w.1, w.2 + 1)
  | .right => w = (v.1, v.2 + 1)

/-- The node at the given indices. -/
def at' (g : Grid P) (v : Nat × Nat) : P := g.node v.1 v.2

/-- The node is on the border of the grid. -/
def Border (s : Side) (g : Grid P) (v : Nat × Nat) : Prop :=
  match s with
  | .bottom => v.1 = 0
  | .top => v.1 + 1 = g.numN
  | .left => v.2 = 0
  | .right => v.2 + 1 = g.numM

/-- The edge `a`, `b` has a face: with the valid nodes `a'` and `b'` on the side away from `s`. -/
structure HasFace (s : Side) (g : Grid P) (a b a' b' : Nat × Nat) : Prop where
  edge : Edge s a b
  inA : In g a
  inB : In g b
  besideA : Beside s a' a
  besideB : Beside s b' b
  inA' : In g a'
  inB' : In g b'
  validA : valid (at' g a) = true
  validB : valid (at' g b) = true
  validA' : valid (at' g a') = true
  validB' : valid (at' g b') = true

variable {K : Type} [Field K] [LinearOrder K]

/-- The image of `q` in `p`. -/
def image (p q : Pt K) : Pt K := ⟨p.x + (p.x - q.x), p.y + (p.y - q.y)⟩

/-- The grid has one line more at the side: `p` and `q` at the positions `i` and `i + 1`, missing nodes elsewhere; the other
lines are those of the grid before. -/
structure NewLine (g g' : Grid (Pt K)) (s : Side) (i : Nat) (p q : Pt K) : Prop where
  depth : s.depth g' = s.depth g + 1
  width : s.width g' = s.width g
  kept : ∀ k j, k < s.depth g → j < s.width g → s.node g' (k + 1) j = s.node g k j
  new : ∀ j, j < s.width g → s.node g' 0 j = if j = i then p else if j = i + 1 then q else inv

end Verif.InsertFace
