import Verif.Faces.Model
/-!
# Specification: proper faces, consistent with the edges

What C14 and C44 say, in terms of the lists handed to the user.
-/
namespace Verif.Faces
open Verif.Mesh

/-- The edge joins the two nodes. -/
def Joins (p : Edge) (a b : Nat) : Prop := p = (a, b) ∨ p = (b, a)

/-- Side `i` of the closed polygon `ns` is edge `es[i]`. -/
def Side (edges : List Edge) (ns es : List Nat) (i : Nat) : Prop :=
  ∃ a b e p, ns[i]? = some a ∧ ns[(i + 1) % ns.length]? = some b ∧ es[i]? = some e ∧ edges[e]? = some p ∧ Joins p a b

/-- A closed polygon of 3 to 6 different nodes and edges of the mesh. -/
structure Proper (edges : List Edge) (ns es : List Nat) : Prop where
  atLeast : 3 ≤ ns.length
  atMost : ns.length ≤ 6
  len : es.length = ns.length
  nodesDistinct : ns.Nodup
  edgesDistinct : es.Nodup
  sides : ∀ i, i < ns.length → Side edges ns es i

/-- Edge `e` is a side of face `f`. -/
def Borders (s : State) (f e : Nat) : Prop := ∃ es, s.facesEdges[f]? = some es ∧ e ∈ es

/-- The edge has `c` faces, in the places `p`; unused places hold the missing value. -/
inductive Places : Nat → Nat × Nat → List Nat → Prop
  | none : Places 0 (missing, missing) []
  | one (f : Nat) : Places 1 (f, missing) [f]
  | two (f g : Nat) : Places 2 (f, g) [f, g]

/-- The lists of faces and edges agree. -/
structure Consistent (edges : List Edge) (clockwise : List Nat → Bool) (s : State) : Prop where
  lengths : s.facesNodes.length = s.facesEdges.length
  proper : ∀ (f : Nat) ns es, s.facesNodes[f]? = some ns → s.facesEdges[f]? = some es → Proper edges ns es ∧ clockwise ns = false
  numFaces : s.numFaces.length = edges.length
  edgesFaces : s.edgesFaces.length = edges.length
  faces : ∀ e, e < edges.length → ∃ c p l, s.numFaces[e]? = some c ∧ s.edgesFaces[e]? = some p ∧ Places c p l ∧ l.Nodup ∧
    ∀ f, f ∈ l ↔ Borders s f e
  once : ∀ (f g : Nat) es es', f ≠ g → s.facesEdges[f]? = some es → s.facesEdges[g]? = some es' → ¬ ∀ e, e ∈ es ↔ e ∈ es'

/-- `e'` comes directly before `e` in the cyclic list `l`. -/
def Before (l : List Nat) (e' e : Nat) : Prop := ∃ j, l[j]? = some e' ∧ l[(j + 1) % l.length]? = some e

/-- The polygon turns as sharply as possible at each of its nodes: with the edges of each node in counterclockwise order,
nothing of the mesh lies between two successive sides. -/
structure Tight (edges : List Edge) (adj : List (List Nat)) (ns es : List Nat) : Prop where
  proper : Proper edges ns es
  start : ∀ (a e : Nat) l, ns[0]? = some a → es[0]? = some e → adj[a]? = some l → e ∈ l
  turns : ∀ (i a e e' : Nat) l, i + 1 < ns.length → ns[i + 1]? = some a → es[i]? = some e → es[i + 1]? = some e' → adj[a]? = some l →
    Before l e' e

/-- The edges listed at each node are edges of the mesh that end there; they are listed at the other end as well. -/
structure Listed (edges : List Edge) (adj : List (List Nat)) (numNodes : Nat) : Prop where
  len : adj.length = numNodes
  nodup : ∀ (n : Nat) l, adj[n]? = some l → l.Nodup
  ends : ∀ (n : Nat) l, adj[n]? = some l → ∀ e ∈ l, ∃ p, edges[e]? = some p ∧ p.1 < numNodes ∧ p.2 < numNodes ∧
    (p.1 = n ∨ p.2 = n) ∧ ∃ l', adj[otherNode p n]? = some l' ∧ e ∈ l'

end Verif.Faces
