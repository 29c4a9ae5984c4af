import Verif.Mesh.Model
/-!
# Specification vocabulary for meshes

What a user sees: the drawn edges, which nodes are used, who is a neighbour of whom.
-/
namespace Verif.Mesh
variable {P : Type}

/-- Coordinates of the two ends of an edge, if both nodes exist and are valid. -/
def seg (nodes : List (Option P)) (e : Edge) : Option (P × P) :=
  match nodes[e.1]?.join, nodes[e.2]?.join with
  | some a, some b => some (a, b)
  | _, _ => none

/-- The drawn mesh: the valid edges, in order, as pairs of coordinates. -/
def segments (m : Mesh P) : List (P × P) := m.edges.filterMap (seg m.nodes)

/-- Node `i` is an end of a valid edge. -/
def Used (m : Mesh P) (i : Nat) : Prop :=
  ∃ e ∈ m.edges, (seg m.nodes e).isSome ∧ (e.1 = i ∨ e.2 = i)

/-- Edge number `i`; indices beyond the end of the vector count as deleted edges. -/
def edgeAt (m : Mesh P) (i : Nat) : Edge := (m.edges[i]?).getD noEdge

/-- The administration of node `n`: the edges listed for it. -/
def listAt (m : Mesh P) (n : Nat) : List Nat := (m.nodesEdges[n]?).getD []

/-- The edge touches node `n`. -/
def touches (e : Edge) (n : Nat) : Prop := e.1 = n ∨ e.2 = n

/-- The edge joins `x` and `y`, in either direction. -/
def joins (e : Edge) (x y : Nat) : Prop := e = (x, y) ∨ e = (y, x)

/-- `x` and `y` are joined by an edge. -/
def Adj (m : Mesh P) (x y : Nat) : Prop := x ≠ missing ∧ y ≠ missing ∧ ∃ i, joins (edgeAt m i) x y

/-- Representation invariant of an administrated mesh. -/
structure WF (m : Mesh P) : Prop where
  /-- indices fit in 32 bits and do not collide with the missing value -/
  nodesFit : m.nodes.length ≤ missing
  edgesFit : m.edges.length ≤ missing
  /-- an edge is deleted, or both its ends are node indices -/
  bounds : ∀ i, edgeAt m i = noEdge ∨ ((edgeAt m i).1 < m.nodes.length ∧ (edgeAt m i).2 < m.nodes.length)
  /-- there is one list and one count per node -/
  lists : m.nodesEdges.length = m.nodes.length
  counts : m.numEdges = m.nodesEdges.map List.length
  /-- the list of a node names edges that exist, each once, and that touch the node or have been
  deleted since -/
  listed : ∀ n i, i ∈ listAt m n → i < m.edges.length ∧ (edgeAt m i = noEdge ∨ touches (edgeAt m i) n)
  nodup : ∀ n, (listAt m n).Nodup
  /-- every edge is in the list of its ends -/
  complete : ∀ i n, edgeAt m i ≠ noEdge → touches (edgeAt m i) n → i ∈ listAt m n

/-- No edge joins a node with itself and no two edges join the same two nodes. -/
structure Simple (m : Mesh P) : Prop where
  noLoop : ∀ i, edgeAt m i ≠ noEdge → (edgeAt m i).1 ≠ (edgeAt m i).2
  noDup : ∀ i j, i ≠ j → edgeAt m i ≠ noEdge → ¬ joins (edgeAt m j) (edgeAt m i).1 (edgeAt m i).2

/-- A mesh that can be administrated: sizes fit, edge ends are node indices, the valid edges have
no loops and no duplicates, and at most 16 of them meet in a node. -/
structure Manageable (m : Mesh P) : Prop where
  nodesFit : m.nodes.length ≤ missing
  edgesFit : m.edges.length ≤ missing
  bounds : ∀ e ∈ m.edges, e.1 = missing ∨ e.2 = missing ∨ (e.1 < m.nodes.length ∧ e.2 < m.nodes.length)
  noLoop : ∀ i, (seg m.nodes (edgeAt m i)).isSome → (edgeAt m i).1 ≠ (edgeAt m i).2
  noDup : ∀ i j, i ≠ j → (seg m.nodes (edgeAt m i)).isSome → (seg m.nodes (edgeAt m j)).isSome →
    ¬ joins (edgeAt m j) (edgeAt m i).1 (edgeAt m i).2
  degree : ∀ n, n < m.nodes.length →
    ((List.range m.edges.length).countP (fun i => (seg m.nodes (edgeAt m i)).isSome &&
      (decide ((edgeAt m i).1 = n) || decide ((edgeAt m i).2 = n)))) ≤ 16

end Verif.Mesh
