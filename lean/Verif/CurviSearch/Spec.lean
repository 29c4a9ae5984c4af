import Verif.CurviSearch.Model
import Verif.Curvi.IndexLemmas
import Mathlib.Algebra.Order.Field.Rat
/-!
# Specification: what a search in a curvilinear grid has to answer

The locations of a grid are its valid nodes, the middles of the edges between two valid nodes and the centres of the faces
with four valid nodes, *as they are now*, numbered row by row (edges: first those across the rows).  A search has to answer
with a location in the given box such that no other one in the box is closer.
-/
namespace Verif.CurviSearch
open Verif.Curvi
variable {P B : Type}

/-- Edge number `i` joins the nodes `a` and `b`. -/
def EdgeNo (N M i : Nat) (a b : Nat × Nat) : Prop :=
  (∃ n m, n + 1 < N ∧ m < M ∧ i = n * M + m ∧ a = (n, m) ∧ b = (n + 1, m)) ∨
  (∃ n m, n < N ∧ m + 1 < M ∧ i = (N - 1) * M + (n * (M - 1) + m) ∧ a = (n, m) ∧ b = (n, m + 1))

/-- Node number `i` is valid and at `q`. -/
def NodeIs [PointLike P] (g : Grid P) (i : Nat) (q : P) : Prop :=
  ∃ n m, n < g.numN ∧ m < g.numM ∧ i = n * g.numM + m ∧ q = g.node n m ∧ valid q = true

/-- Edge number `i` joins two valid nodes, and `q` is half way. -/
def EdgeIs [PointLike P] (o : Eye P B) (g : Grid P) (i : Nat) (q : P) : Prop :=
  ∃ a b, EdgeNo g.numN g.numM i a b ∧ valid (g.node a.1 a.2) = true ∧ valid (g.node b.1 b.2) = true ∧
    q = o.mid (g.node a.1 a.2) (g.node b.1 b.2)

/-- Face number `i` has four valid nodes, and `q` is its centre. -/
def FaceIs [PointLike P] (o : Eye P B) (g : Grid P) (i : Nat) (q : P) : Prop :=
  ∃ n m, n + 1 < g.numN ∧ m + 1 < g.numM ∧ i = n * (g.numM - 1) + m ∧ valid (g.node n m) = true ∧
    valid (g.node n (m + 1)) = true ∧ valid (g.node (n + 1) (m + 1)) = true ∧ valid (g.node (n + 1) m) = true ∧
    q = o.centre (g.node n m) (g.node n (m + 1)) (g.node (n + 1) (m + 1)) (g.node (n + 1) m)

/-- Location number `i` of the kind `l` is at `q`. -/
def LocIs [PointLike P] (o : Eye P B) (g : Grid P) : Loc → Nat → P → Prop
  | .nodes => NodeIs g
  | .edges => EdgeIs o g
  | .faces => FaceIs o g

/-- `i` is a location in the box and no location in the box is closer to `p`. -/
def Nearest (o : Eye P B) (dist : P → P → ℚ) (at' : Nat → P → Prop) (b : B) (p : P) (i : Nat) : Prop :=
  ∃ q, at' i q ∧ o.contains b q = true ∧ ∀ j r, at' j r → o.contains b r = true → dist p q ≤ dist p r

/-- There is no location in the box. -/
def NoneIn (o : Eye P B) (at' : Nat → P → Prop) (b : B) : Prop := ∀ j r, at' j r → o.contains b r = false

/-- The search returns a nearest point when there is a point, and nothing otherwise (`boost::geometry::index::nearest`). -/
structure SearchOk (o : Eye P B) (dist : P → P → ℚ) : Prop where
  found : ∀ t p, t ≠ [] → ∃ i q, o.nearest t p = some i ∧ (q, i) ∈ t ∧ ∀ v ∈ t, dist p q ≤ dist p v.1
  empty : ∀ p, o.nearest [] p = none

/-- Centres behave in the box: the centre of what exists is a valid point, and the point computed for what does not exist is
missing or outside of the box. -/
def Clear [PointLike P] (o : Eye P B) (g : Grid P) (b : B) : Loc → Prop
  | .nodes => True
  | .edges => ∀ i u v, EdgeNo g.numN g.numM i u v →
      (valid (o.mid (g.node u.1 u.2) (g.node v.1 v.2)) = true ∧
        o.contains b (o.mid (g.node u.1 u.2) (g.node v.1 v.2)) = true →
        valid (g.node u.1 u.2) = true ∧ valid (g.node v.1 v.2) = true) ∧
      (valid (g.node u.1 u.2) = true → valid (g.node v.1 v.2) = true →
        valid (o.mid (g.node u.1 u.2) (g.node v.1 v.2)) = true)
  | .faces => ∀ n m, n + 1 < g.numN → m + 1 < g.numM →
      let c := o.centre (g.node n m) (g.node n (m + 1)) (g.node (n + 1) (m + 1)) (g.node (n + 1) m)
      (valid c = true ∧ o.contains b c = true →
        valid (g.node n m) = true ∧ valid (g.node n (m + 1)) = true ∧ valid (g.node (n + 1) (m + 1)) = true ∧
          valid (g.node (n + 1) m) = true) ∧
      (valid (g.node n m) = true → valid (g.node n (m + 1)) = true → valid (g.node (n + 1) (m + 1)) = true →
        valid (g.node (n + 1) m) = true → valid c = true)

/-- A step that is a search. -/
def Step.Search : Step P B → Prop
  | .query _ _ => True
  | _ => False

/-- All searches since the grid was last changed were for the box `b`. -/
def Steady (b : B) (h : List (Step P B)) : Prop :=
  ∀ before after l b', h = before ++ .query l b' :: after → (∀ x ∈ after, x.Search) → b' = b

/-- A change of the numbers of rows and columns always comes with a new table. -/
def Numbered : Grid P → List (Step P B) → Prop
  | _, [] => True
  | g, .query _ _ :: h => Numbered g h
  | g, .write k :: h => k.numN = g.numN ∧ k.numM = g.numM ∧ Numbered k h
  | _, .renumber k :: h => Numbered k h

/-- The nearest valid node is the one in row `v.1` and column `v.2`. -/
def NearestNode [PointLike P] (dist : P → P → ℚ) (g : Grid P) (p : P) (v : Nat × Nat) : Prop :=
  v.1 < g.numN ∧ v.2 < g.numM ∧ valid (g.node v.1 v.2) = true ∧
  ∀ n m, n < g.numN → m < g.numM → valid (g.node n m) = true → dist p (g.node v.1 v.2) ≤ dist p (g.node n m)

/-- Two nodes are neighbours. -/
def Neighbours (g : Grid P) (a b : Nat × Nat) : Prop :=
  a.1 < g.numN ∧ a.2 < g.numM ∧ b.1 < g.numN ∧ b.2 < g.numM ∧
  ((b.1 = a.1 + 1 ∧ b.2 = a.2) ∨ (b.1 = a.1 ∧ b.2 = a.2 + 1))

/-- The edge between the valid neighbours `a` and `b` is the nearest one, by its middle. -/
def NearestEdge [PointLike P] (o : Eye P B) (dist : P → P → ℚ) (g : Grid P) (p : P) (a b : Nat × Nat) : Prop :=
  Neighbours g a b ∧ valid (g.node a.1 a.2) = true ∧ valid (g.node b.1 b.2) = true ∧
  ∀ u v, Neighbours g u v → valid (g.node u.1 u.2) = true → valid (g.node v.1 v.2) = true →
    dist p (o.mid (g.node a.1 a.2) (g.node b.1 b.2)) ≤ dist p (o.mid (g.node u.1 u.2) (g.node v.1 v.2))

end Verif.CurviSearch
