import Verif.Mesh.Spec
import Verif.Faces.Spec
import Verif.Delete.Model
/-!
# Specification: which part of a mesh is deleted
-/
namespace Verif.Delete
open Verif.Mesh Verif.Faces
variable {P : Type}

/-- All corners of face `f` lie in the polygon. -/
def Within (inside : P → Bool) (m : Mesh P) (s : State) (f : Nat) : Prop :=
  ∀ ns, s.facesNodes[f]? = some ns → ∀ n ∈ ns, ∃ p, m.nodes[n]? = some (some p) ∧ inside p = true

/-- A face is selected by the polygon. -/
def Picked (c : Choice) (within crossed : Prop) : Prop :=
  match c with
  | .insideNotIntersected => within ∧ ¬ crossed
  | .insideAndIntersected => within ∨ crossed

/-- Face `f` is to be deleted: it is selected or, with `invert`, not selected. -/
def Selected (inside : P → Bool) (crossed : List Bool) (c : Choice) (invert : Bool) (m : Mesh P) (s : State) (f : Nat) : Prop :=
  if invert then ¬ Picked c (Within inside m s f) (crossed[f]? = some true) else Picked c (Within inside m s f) (crossed[f]? = some true)

/-- `m'` is `m` reduced to the edges in `keep` and the nodes at their ends; numbers do not change. -/
structure Reduced (m m' : Mesh P) (keep : Nat → Prop) : Prop where
  numNodes : m'.nodes.length = m.nodes.length
  numEdges : m'.edges.length = m.edges.length
  kept : ∀ e, keep e → edgeAt m' e = edgeAt m e
  gone : ∀ e, ¬ keep e → edgeAt m' e = noEdge
  nodes : ∀ i, (∃ e, keep e ∧ touches (edgeAt m e) i) → m'.nodes[i]? = m.nodes[i]?
  noNodes : ∀ i, i < m.nodes.length → (¬ ∃ e, keep e ∧ touches (edgeAt m e) i) → m'.nodes[i]? = some none

/-- An edge that is a side of a face that is not selected. -/
def OfKeptFace (sel : Nat → Prop) (s : State) (e : Nat) : Prop := ∃ f, Borders s f e ∧ ¬ sel f

/-- What deletion by circumcentres keeps: an edge with faces when the centre of one of them is not selected, an edge without faces
when its middle is not selected. -/
def KeptByCentre (centre : Nat → Bool) (middle : P → P → Bool) (invert : Bool) (m : Mesh P) (s : State) (e : Nat) : Prop :=
  (∃ f, Borders s f e ∧ centre f = invert) ∨
  ((¬ ∃ f, Borders s f e) ∧ ∃ a b, seg m.nodes (edgeAt m e) = some (a, b) ∧ middle a b = invert)

/-- An edge of the mesh hangs when no other edge comes to one of its ends. -/
def Hangs (m : Mesh P) (e : Nat) : Prop :=
  edgeAt m e ≠ noEdge ∧ ∃ n, touches (edgeAt m e) n ∧ ∀ j, edgeAt m j ≠ noEdge → touches (edgeAt m j) n → j = e

end Verif.Delete
