import Verif.InsertEdge.Model
import Verif.Cache.Spec
/-!
# Specification: inserting an edge between two points
-/
namespace Verif.InsertEdge
open Verif.Mesh Verif.Cache
variable {P B K : Type} [Field K] [LinearOrder K]

/-- Node `i` is at most `r` away from `p` and no node is closer to `p`. -/
def Reused (dist : P → P → K) (m : Mesh P) (p : P) (r : K) (i : Nat) : Prop :=
  ∃ x, NodeIs m i x ∧ dist p x ≤ r ∧ ∀ j y, NodeIs m j y → dist p x ≤ dist p y

/-- No node is closer to `p` than `r`. -/
def Alone (dist : P → P → K) (m : Mesh P) (p : P) (r : K) : Prop := ∀ j y, NodeIs m j y → r ≤ dist p y

/-- Node `i` of mesh `m'`, made from `m`, is the right end of an edge at `p`: a node of `m` that is close to `p`, or, when
there is none, a new node at `p` itself. -/
def EndAt (dist : P → P → K) (m m' : Mesh P) (p : P) (r : K) (i : Nat) : Prop :=
  (i < m.nodes.length ∧ Reused dist m p r i) ∨ (m.nodes.length ≤ i ∧ Alone dist m p r ∧ NodeIs m' i p)

/-- The lists of the edges of the nodes are usable: they need not name all edges. -/
structure Tidy (m : Mesh P) : Prop where
  nodesFit : m.nodes.length ≤ missing
  edgesFit : m.edges.length ≤ missing
  bounds : ∀ i, edgeAt m i = noEdge ∨ ((edgeAt m i).1 < m.nodes.length ∧ (edgeAt m i).2 < m.nodes.length)
  lists : m.nodesEdges.length = m.nodes.length
  counts : m.numEdges = m.nodesEdges.map List.length
  listed : ∀ n i, i ∈ listAt m n → i < m.edges.length ∧ (edgeAt m i = noEdge ∨ touches (edgeAt m i) n)

/-- An edge between `a` and `b` is in the list of `a`. -/
def Known (m : Mesh P) (a b : Nat) : Prop := ∃ i ∈ listAt m a, joins (edgeAt m i) a b

/-- The search answers with a nearest point within the distance, and fails only if no point is closer than the distance
(`boost::geometry::index`). -/
def CloseOk (close : List (P × Nat) → P → K → Option Nat) (dist : P → P → K) : Prop :=
  ∀ t p r, (∀ i, close t p r = some i → ∃ q, (q, i) ∈ t ∧ dist p q ≤ r ∧ ∀ v ∈ t, dist p q ≤ dist p v.1) ∧
    (close t p r = none → ∀ v ∈ t, r ≤ dist p v.1)

/-- The box contains everything and equals itself. -/
structure Whole (g : Geo P B) (whole : B) : Prop where
  all : ∀ p, g.contains whole p = true
  same : g.sameBox whole whole = true

/-- The nodes tree shows the nodes, unless it is going to be rebuilt. -/
def Current (g : Geo P B) (whole : B) (s : Cached P B) : Prop :=
  s.nodesDirty = false → g.sameBox s.box whole = true → s.nodesTree = buildPoints g s.mesh.nodes whole

/-- The triangle inequality. -/
def Triangle (dist : P → P → K) : Prop := ∀ p q x, dist p q ≤ dist p x + dist q x

end Verif.InsertEdge
