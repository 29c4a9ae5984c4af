import Verif.Transfinite.Model
import Mathlib.Algebra.Order.Field.Basic
/-!
# What a grid made from a polygon should be

The grid has four sides, taken from the nodes of the polygon. Nodes are counted round the polygon: `node nodes i` is the
node number `i`, and after the last one comes the first one again.
-/
namespace Verif.Transfinite
open Verif.Curvi Verif.CurviLine

variable {K : Type} [Field K] [LinearOrder K]

/-- A closed polygon: the last point repeats the first. -/
structure Closed (nodes : List (Pt K)) : Prop where
  size : 4 ≤ nodes.length
  fits : nodes.length ≤ 2 ^ 30
  closed : nodes.head? = nodes.getLast?

/-- The number of nodes. -/
def count (nodes : List (Pt K)) : Nat := nodes.length - 1

/-- The node number `i`, counted round the polygon. -/
def node (nodes : List (Pt K)) (i : Int) : Pt K := pt nodes (i % (count nodes : Int)).toNat

/-- The number of steps from node `a` on to node `b`. -/
def steps (num a b : Nat) : Nat := (((b : Int) - a) % (num : Int)).toNat

/-- From `a` to `b` the short way round: 1 if that is in the order of the nodes, -1 if not. -/
def way (num a b : Nat) : Int := if steps num a b ≤ steps num b a then 1 else -1

/-- The four sides of a grid and the numbers of cells along them; `bottom` and `upper` have `p`, the other two `q`. -/
structure Outline (K : Type) where
  p : Nat
  q : Nat
  bottom : Nat → Pt K
  right : Nat → Pt K
  upper : Nat → Pt K
  left : Nat → Pt K

/-- The point at `i` of `k` equal steps from one point to another. -/
def between (a b : Pt K) (k i : Nat) : Pt K := add (scale a (1 - (i : K) / (k : K))) (scale b ((i : K) / (k : K)))

/-- The number of cells on the side from `a` to `b`. -/
def cellsP (num a b : Nat) : Nat := min (steps num a b) (steps num b a)

/-- The number of cells on the side from `b` to `c`. -/
def cellsQ (num a b c : Nat) : Nat := if way num a b = 1 then steps num b c else steps num c b

/-- The sides the user asks for: from node `a` to node `b` the short way round, on to node `c`, and on as many steps as
there are from `a` to `b`. The fourth side is made of the nodes before `a`, or of a straight line. -/
def outline (nodes : List (Pt K)) (a b c : Nat) (useFourth : Bool) : Outline K :=
  let s := way (count nodes) a b
  let p := cellsP (count nodes) a b
  let q := cellsQ (count nodes) a b c
  { p := p
    q := q
    bottom := fun n => node nodes (a + s * n)
    right := fun m => node nodes (b + s * m)
    upper := fun n => node nodes (c + s * (p - n))
    left := fun m => if useFourth then node nodes (a - s * m) else between (node nodes a) (node nodes (c + s * p)) q m }

/-- Counting back from `c` passes below node number zero. -/
def Below (num a b c : Nat) : Prop := way num a b = -1 ∧ c < cellsP num a b

/-- Node numbers of the polygon, all different. -/
structure Picked (nodes : List (Pt K)) (a b c : Nat) : Prop where
  ha : a < count nodes
  hb : b < count nodes
  hc : c < count nodes
  ab : a ≠ b
  bc : b ≠ c
  ac : a ≠ c

/-- The number of nodes the sides need. -/
def needed (num a b c : Nat) (useFourth : Bool) : Nat :=
  if useFourth then 2 * cellsP num a b + 2 * cellsQ num a b c else 1 + 2 * cellsP num a b + cellsQ num a b c

/-- Every point of the sides has coordinates. -/
structure Outline.Valid (o : Outline K) : Prop where
  bottom : ∀ n ≤ o.p, valid (o.bottom n) = true
  right : ∀ m ≤ o.q, valid (o.right m) = true
  upper : ∀ n ≤ o.p, valid (o.upper n) = true
  left : ∀ m ≤ o.q, valid (o.left m) = true

/-- The grid lies between these sides. -/
structure Outline.Borders (o : Outline K) (g : Grid (Pt K)) : Prop where
  rows : g.rows = o.p + 1
  cols : g.cols = o.q + 1
  shown : g.sn = 0 ∧ g.sm = 0 ∧ g.en = 0 ∧ g.em = 0
  bottom : ∀ n ≤ o.p, g.cell n 0 = o.bottom n
  right : ∀ m ≤ o.q, g.cell o.p m = o.right m
  left : ∀ m ≤ o.q, g.cell 0 m = o.left m
  upper : ∀ n, 1 ≤ n → n ≤ o.p → g.cell n o.q = o.upper n

/-- The length of a line up to its point `n`. -/
def lengthTo (dist : Pt K → Pt K → K) (line : Nat → Pt K) : Nat → K
  | 0 => 0
  | n + 1 => lengthTo dist line n + dist (line n) (line (n + 1))

/-- Opposite sides are divided in the same proportions, and no side has points that coincide. -/
structure Outline.Even (dist : Pt K → Pt K → K) (o : Outline K) : Prop where
  along : ∀ n ≤ o.p, lengthTo dist o.bottom n * lengthTo dist o.upper o.p = lengthTo dist o.upper n * lengthTo dist o.bottom o.p
  across : ∀ m ≤ o.q, lengthTo dist o.left m * lengthTo dist o.right o.q = lengthTo dist o.right m * lengthTo dist o.left o.q
  bottom : ∀ n < o.p, 0 < dist (o.bottom n) (o.bottom (n + 1))
  upper : ∀ n < o.p, 0 < dist (o.upper n) (o.upper (n + 1))
  left : ∀ m < o.q, 0 < dist (o.left m) (o.left (m + 1))
  right : ∀ m < o.q, 0 < dist (o.right m) (o.right (m + 1))

/-- A half plane. -/
def Half (α β γ : K) (p : Pt K) : Prop := α * p.x + β * p.y ≤ γ

/-- An affine map. -/
structure Affine (K : Type) where
  xx : K
  xy : K
  tx : K
  yx : K
  yy : K
  ty : K

def Affine.apply (f : Affine K) (p : Pt K) : Pt K := ⟨f.xx * p.x + f.xy * p.y + f.tx, f.yx * p.x + f.yy * p.y + f.ty⟩

/-- The outline of a parallelogram with a corner `o` and sides `u` and `v`, divided at `β` and `γ`. -/
structure Outline.Parallelogram (o : Outline K) (corner u v : Pt K) (β γ : Nat → K) : Prop where
  bottom : ∀ n ≤ o.p, o.bottom n = add corner (scale u (β n))
  upper : ∀ n ≤ o.p, o.upper n = add (add corner v) (scale u (β n))
  left : ∀ m ≤ o.q, o.left m = add corner (scale v (γ m))
  right : ∀ m ≤ o.q, o.right m = add (add corner u) (scale v (γ m))
  ends : β 0 = 0 ∧ β o.p = 1 ∧ γ 0 = 0 ∧ γ o.q = 1
  along : ∀ n < o.p, β n < β (n + 1)
  across : ∀ m < o.q, γ m < γ (m + 1)

/-! ## Triangles -/

/-- The three nodes follow each other in the order of the polygon. -/
def InOrder (num a b c : Nat) : Prop := steps num a b + steps num b c + steps num c a = num

/-- The three sides are shorter than half of the polygon. -/
def Balanced (num a b c : Nat) : Prop :=
  steps num a b < num / 2 ∧ steps num b c < num / 2 ∧ steps num c a < num / 2

/-- The numbers of cells between a corner of the triangle and the middles of its sides: `x` at `a` on the side to `b`
and, by the middle, at `c` on the side from `b`; `y` at `b` and `c`; `z` at `b` and `a`. -/
structure Cut where
  x : Nat
  y : Nat
  z : Nat

/-- The cut of a triangle whose sides have `x + y`, `x + z` and `y + z` cells. -/
def cut (num a b c : Nat) : Cut := ⟨num / 2 - steps num c a, num / 2 - steps num b c, num / 2 - steps num a b⟩

/-- The grid of a triangle: three blocks that meet in the point `mid`. It is cut open from the middle of the side from
`a` to `b` to that point, and the corner beyond this cut is left out. -/
structure TriGrid (nodes : List (Pt K)) (a b c : Nat) (mid : Pt K) (k : Cut) (g : Grid (Pt K)) : Prop where
  rows : g.rows = k.x + k.z + 1
  cols : g.cols = k.y + k.z + 1
  shown : g.sn = 0 ∧ g.sm = 0 ∧ g.en = 0 ∧ g.em = 0
  sideAB : ∀ i ≤ k.x, g.cell i 0 = node nodes (a + i)
  sideAB' : ∀ j ≤ k.y, g.cell (k.x + k.z) (k.z + j) = node nodes (a + k.x + j)
  sideBC : ∀ i ≤ k.x + k.z, g.cell (k.x + k.z - i) (k.y + k.z) = node nodes (b + i)
  sideCA : ∀ j ≤ k.y + k.z, g.cell 0 (k.y + k.z - j) = node nodes (c + j)
  seamAB : ∀ j ≤ k.z, g.cell k.x j = between (node nodes (a + k.x)) mid k.z j
  seamAB' : ∀ j ≤ k.z, g.cell (k.x + k.z - j) k.z = between (node nodes (a + k.x)) mid k.z j
  seamBC : ∀ j ≤ k.y, g.cell k.x (k.y + k.z - j) = between (node nodes (b + k.z)) mid k.y j
  seamCA : ∀ i ≤ k.x, g.cell i k.z = between (node nodes (c + k.y)) mid k.x i
  leftOut : ∀ i j, k.x < i → j < k.z → g.cell i j = inv

/-- A weighted mean of the corners. -/
structure Mean3 (p q r m : Pt K) (α β γ : K) : Prop where
  sum : α + β + γ = 1
  x : m.x = α * p.x + β * q.x + γ * r.x
  y : m.y = α * p.y + β * q.y + γ * r.y

end Verif.Transfinite
