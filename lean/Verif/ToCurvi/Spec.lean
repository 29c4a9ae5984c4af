import Verif.ToCurvi.Model
import Verif.Mesh.Spec
import Verif.Faces.Spec
/-!
# Specification: a curvilinear grid laid over the quadrilaterals of a mesh

Places are given by a column `i` and a row `j`, any whole numbers; the rows and columns of the grid start at the smallest ones in use.
-/
namespace Verif.ToCurvi
open Verif.Mesh Verif.Faces Verif.Curvi
variable {P : Type}

/-- Face `f` is a quadrilateral with the corners `ns`. -/
def Quad (s : State) (f : Nat) (ns : List Nat) : Prop := s.facesNodes[f]? = some ns ∧ ns.length = 4

/-- Two nodes are joined by a side of a quadrilateral. -/
def Linked (m : Mesh P) (s : State) (a b : Nat) : Prop := ∃ e f ns, joins (edgeAt m e) a b ∧ Borders s f e ∧ Quad s f ns

/-- The four places are the corners of a unit square, in order around it. -/
def Cell (p0 p1 p2 p3 : Int × Int) : Prop :=
  ∃ u v : Int, (u = 1 ∨ u = -1) ∧ (v = 1 ∨ v = -1) ∧
    ((p1 = (p0.1 + u, p0.2) ∧ p2 = (p0.1 + u, p0.2 + v) ∧ p3 = (p0.1, p0.2 + v)) ∨
     (p1 = (p0.1, p0.2 + v) ∧ p2 = (p0.1 + u, p0.2 + v) ∧ p3 = (p0.1 + u, p0.2)))

/-- One place is directly beside the other, in the same row or column. -/
def Beside (p q : Int × Int) : Prop :=
  (p.2 = q.2 ∧ (p.1 = q.1 + 1 ∨ q.1 = p.1 + 1)) ∨ (p.1 = q.1 ∧ (p.2 = q.2 + 1 ∨ q.2 = p.2 + 1))

/-- The nodes `ns` are the corners of a unit square. -/
def OnCell (place : Nat → Option (Int × Int)) (ns : List Nat) : Prop :=
  ∃ (a b c d : Nat) (p0 p1 p2 p3 : Int × Int), ns = [a, b, c, d] ∧ place a = some p0 ∧ place b = some p1 ∧ place c = some p2 ∧
    place d = some p3 ∧ Cell p0 p1 p2 p3

/-- Faces `f` and `g` are different quadrilaterals, with the corners `ns` and `ns'`, with the common side `e`. -/
structure Next (s : State) (e f g : Nat) (ns ns' : List Nat) : Prop where
  left : Quad s f ns
  right : Quad s g ns'
  ne : f ≠ g
  leftSide : Borders s f e
  rightSide : Borders s g e

/-- The quadrilaterals that can be reached over common sides of quadrilaterals with all corners in the grid. -/
inductive Reached (s : State) (place : Nat → Option (Int × Int)) (f0 : Nat) : Nat → Prop
  | start : Reached s place f0 f0
  | step (e f g : Nat) (ns ns' : List Nat) : Reached s place f0 f → Next s e f g ns ns' → OnCell place ns' → Reached s place f0 g

/-- Node `x` cannot be at `p`: it is elsewhere, or it is not joined to a node beside that place. -/
def Obstructed (m : Mesh P) (s : State) (place : Nat → Option (Int × Int)) (x : Nat) (p : Int × Int) : Prop :=
  (∃ q, place x = some q ∧ q ≠ p) ∨ ∃ w q, place w = some q ∧ Beside q p ∧ ¬ Linked m s w x

/-- The corners `ns`, one after the other, from any corner and in any direction. -/
def Around (ns : List Nat) (a b c d : Nat) : Prop :=
  ns = [a, b, c, d] ∨ ns = [b, c, d, a] ∨ ns = [c, d, a, b] ∨ ns = [d, a, b, c] ∨
  ns = [d, c, b, a] ∨ ns = [c, b, a, d] ∨ ns = [b, a, d, c] ∨ ns = [a, d, c, b]

/-- The quadrilateral `ns'` beside `ns`, on the other side of the edge `e` from `a` to `b`, cannot be in the grid: `x` would have to be
opposite to `d`, `y` opposite to `c`, and one of them cannot. -/
def Blocked (m : Mesh P) (s : State) (place : Nat → Option (Int × Int)) (e : Nat) (ns ns' : List Nat) : Prop :=
  ∃ (a b c d x y : Nat) (p q r r' : Int × Int), Around ns a b c d ∧ Around ns' a b y x ∧ joins (edgeAt m e) a b ∧
    place a = some p ∧ place b = some q ∧ place c = some r' ∧ place d = some r ∧ Cell p q r' r ∧
    (Obstructed m s place x (2 * p.1 - r.1, 2 * p.2 - r.2) ∨ Obstructed m s place y (2 * q.1 - r'.1, 2 * q.2 - r'.2))

/-- The grid `g` is laid over the mesh, starting with the face `f0`; `place` tells where the nodes of the mesh are. -/
structure Laid (m : Mesh P) (s : State) (f0 : Nat) (g : Grid (Option P)) (place : Nat → Option (Int × Int)) (i0 j0 : Int) : Prop where
  /-- only valid nodes of the mesh are in the grid, no two at one place -/
  valid : ∀ n p, place n = some p → validNode m.nodes n = true
  once : ∀ n n' p, place n = some p → place n' = some p → n = n'
  /-- the grid has these nodes, at their coordinates, and no others -/
  inside : ∀ n p, place n = some p → i0 ≤ p.1 ∧ p.1 < i0 + g.cols ∧ j0 ≤ p.2 ∧ p.2 < j0 + g.rows
  node : ∀ n p, place n = some p → g.cell (p.2 - j0).toNat (p.1 - i0).toNat = (m.nodes[n]?).join
  empty : ∀ r c : Nat, (∀ n, place n ≠ some (i0 + c, j0 + r)) → g.cell r c = none
  /-- no row or column is hidden, and none on the border is empty -/
  plain : g.sn = 0 ∧ g.sm = 0 ∧ g.en = 0 ∧ g.em = 0
  border : (∃ n p, place n = some p ∧ p.1 = i0) ∧ (∃ n p, place n = some p ∧ p.1 + 1 = i0 + g.cols) ∧
    (∃ n p, place n = some p ∧ p.2 = j0) ∧ (∃ n p, place n = some p ∧ p.2 + 1 = j0 + g.rows)
  /-- nodes beside each other are joined by a side of a quadrilateral -/
  linked : ∀ n n' p q, place n = some p → place n' = some q → Beside p q → Linked m s n n'
  /-- the first face is in the grid, not mirrored -/
  first : ∃ a b c d, s.facesNodes[f0]? = some [a, b, c, d] ∧ place b = some (0, 0) ∧ place c = some (1, 0) ∧ place d = some (1, 1) ∧
    place a = some (0, 1)
  /-- every node belongs to a quadrilateral of the mesh that is a cell of the grid and connected with the first one -/
  owner : ∀ n p, place n = some p → ∃ f ns, Quad s f ns ∧ n ∈ ns ∧ OnCell place ns ∧ Reached s place f0 f
  /-- the grid is as large as can be: a quadrilateral beside one in the grid is in the grid or cannot be -/
  grown : ∀ e f h ns ns', Reached s place f0 f → Next s e f h ns ns' → OnCell place ns' ∨ Blocked m s place e ns ns'

/-- The quadrilaterals connected with the face `f0` over common sides of quadrilaterals. -/
inductive Connected (s : State) (f0 : Nat) : Nat → Prop
  | start : Connected s f0 f0
  | step (e f g : Nat) (ns ns' : List Nat) : Connected s f0 f → Next s e f g ns ns' → Connected s f0 g

/-- Node `n` is a corner of a quadrilateral connected with `f0`. -/
def Corner (s : State) (f0 n : Nat) : Prop := ∃ f ns, Connected s f0 f ∧ Quad s f ns ∧ n ∈ ns

/-- No other corner is joined, by sides of quadrilaterals, to two opposite corners of a quadrilateral. -/
def NoTwin (m : Mesh P) (s : State) (f0 : Nat) : Prop :=
  ∀ (f a b c d x : Nat), Connected s f0 f → s.facesNodes[f]? = some [a, b, c, d] → Corner s f0 x →
    (Linked m s a x → Linked m s c x → x = b ∨ x = d) ∧ (Linked m s b x → Linked m s d x → x = a ∨ x = c)

/-- Every edge that ends at a corner is a side of a face. -/
def Bordered (m : Mesh P) (s : State) (f0 : Nat) : Prop := ∀ n e, Corner s f0 n → touches (edgeAt m e) n → ∃ g, Borders s g e

/-- The quadrilaterals connected with `f0` are the cells of a plain grid, perhaps with cells left out: node `n` belongs at `spot n`.  Two nodes
beside each other are joined, others are not. -/
structure Lattice (m : Mesh P) (s : State) (f0 : Nat) (spot : Nat → Int × Int) : Prop where
  cell : ∀ (f a b c d : Nat), Connected s f0 f → s.facesNodes[f]? = some [a, b, c, d] → Cell (spot a) (spot b) (spot c) (spot d)
  once : ∀ n n', Corner s f0 n → Corner s f0 n' → spot n = spot n' → n = n'
  linked : ∀ n n', Corner s f0 n → Corner s f0 n' → (Linked m s n n' ↔ Beside (spot n) (spot n'))

/-- The places `p` are those of the lattice, seen from the first face: its second corner at (0, 0), the third at (1, 0), the first at (0, 1). -/
def Seen (s : State) (f0 : Nat) (spot : Nat → Int × Int) (n : Nat) (p : Int × Int) : Prop :=
  ∃ a b c d, s.facesNodes[f0]? = some [a, b, c, d] ∧
    (spot n).1 = (spot b).1 + p.1 * ((spot c).1 - (spot b).1) + p.2 * ((spot a).1 - (spot b).1) ∧
    (spot n).2 = (spot b).2 + p.1 * ((spot c).2 - (spot b).2) + p.2 * ((spot a).2 - (spot b).2)

/-- The lattice is not too wide: its nodes are less than 999 columns and rows apart. -/
def Narrow (s : State) (f0 : Nat) (spot : Nat → Int × Int) : Prop :=
  ∀ n n', Corner s f0 n → Corner s f0 n' → (spot n).1 - (spot n').1 < 999 ∧ (spot n).2 - (spot n').2 < 999

/-- The face found for the point is the quadrilateral `f`, and it contains the point. -/
def Start (nearest : State → Res Nat) (contains : List (Option P) → Bool) (m : Mesh P) (s : State) (f : Nat) : Prop :=
  nearest s = .ok f ∧ ∃ a b c d, s.facesNodes[f]? = some [a, b, c, d] ∧ contains ([a, b, c, d, a].map fun n => (m.nodes[n]?).join) = true

end Verif.ToCurvi
