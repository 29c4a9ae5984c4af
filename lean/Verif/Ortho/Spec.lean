import Verif.Ortho.Model
/-!
# Specification: what orthogonalization leaves alone
-/
namespace Verif.Ortho
open Verif.Mesh
variable {K : Type} [Field K] [LinearOrder K]

/-- The point lies on the straight line from `a` to `b`. -/
def OnLine (p a b : Pt K) : Prop := ∃ r : K, 0 ≤ r ∧ r ≤ 1 ∧ p = ⟨a.x + r * (b.x - a.x), a.y + r * (b.y - a.y)⟩

/-- The edges of the list with one face. -/
def boundaryOf (numFaces : List Nat) (l : List Nat) : List Nat := l.filter (fun e => numFaces.getD e 0 == 1)

/-- The tables of the mesh agree: the edges listed at a node are those that end there. -/
structure Tables (edges : List Edge) (adj : List (List Nat)) (numFaces : List Nat) (numNodes : Nat) : Prop where
  nodesFit : numNodes ≤ missing
  len : adj.length = numNodes
  numFaces : numFaces.length = edges.length
  valid : ∀ p ∈ edges, p.1 = missing ∨ p.2 = missing ∨ (p.1 < numNodes ∧ p.2 < numNodes ∧ p.1 ≠ p.2)
  nodup : ∀ (n : Nat) l, adj[n]? = some l → l.Nodup
  mem : ∀ (n : Nat) l, adj[n]? = some l → ∀ e, e ∈ l ↔ ∃ p, edges[e]? = some p ∧ p.1 ≠ missing ∧ p.2 ≠ missing ∧ (p.1 = n ∨ p.2 = n)

/-- What the types mean (`m_nodesTypes`, `Mesh2D.hpp`): -1 for nodes with less than two edges, 1 for nodes without boundary edges, 3 for
corners, 2 for other nodes on the boundary.  Corners have only two edges or more than two boundary edges. -/
def expectedType (numFaces : List Nat) (l : List Nat) : Int :=
  if l.length < 2 then -1
  else if (boundaryOf numFaces l).length = 0 then 1
  else if l.length = 2 ∨ 2 < (boundaryOf numFaces l).length then 3
  else 2

/-- The weights are large enough: those of the smoother for nodes of type 1 (`m_weights`, `m_connectedNodes`), those of the orthogonalizer for all
nodes. -/
structure Shaped (net : Net) (w : Weights K) (numNodes : Nat) : Prop where
  numConnected : w.numConnected.length = numNodes
  rhs : w.rhs.length = numNodes
  orth : ∀ (n : Nat) l, net.adj[n]? = some l → ∃ r, w.orth[n]? = some r ∧ l.length ≤ r.length
  smooth : ∀ (n : Nat) l c, net.types[n]? = some 1 → net.adj[n]? = some l → w.numConnected[n]? = some c →
    ∃ r, w.smooth[n]? = some r ∧ max (l.length + 1) c ≤ r.length
  connected : ∀ (n c : Nat), w.numConnected[n]? = some c → ∃ r, w.connected[n]? = some r ∧ c ≤ r.length ∧ ∀ k ∈ r, k < numNodes

end Verif.Ortho
