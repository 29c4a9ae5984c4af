import Verif.Casulli.Model
import Verif.Faces.Spec
import Verif.Mesh.Spec
/-!
# Specification: what Casulli refinement draws

The new nodes have names: one in each corner of each face, and one at each end of each boundary edge.  `Link` lists which of them are joined.
-/
namespace Verif.Casulli
open Verif.Mesh Verif.Faces
variable {P : Type}

/-- Names of the nodes of the refined mesh. -/
inductive Label where
  /-- a node of the mesh before -/
  | old (n : Nat)
  /-- the new node in the corner of face `f` at node `n` -/
  | inside (f n : Nat)
  /-- the new node on boundary edge `e` near node `n` -/
  | along (e n : Nat)
deriving DecidableEq

/-- The node of the mesh before that it belongs to. -/
def Label.node : Label → Nat
  | .old n => n
  | .inside _ n => n
  | .along _ n => n

/-- The edge has a face on one side only. -/
def Rim (s : State) (e : Nat) : Prop := s.numFaces[e]? = some 1

/-- There is a face with a corner there, or a boundary edge with an end there. -/
def Occurs (m : Mesh P) (s : State) : Label → Prop
  | .old n => n < m.nodes.length
  | .inside f n => ∃ ns, s.facesNodes[f]? = some ns ∧ n ∈ ns
  | .along e n => Rim s e ∧ touches (edgeAt m e) n

/-- The new nodes of a face. -/
def faceTasks (s : State) (f : Nat) : List Label := ((s.facesNodes[f]?).getD []).map (Label.inside f)

/-- The new nodes of an edge. -/
def rimTasks (m : Mesh P) (s : State) (e : Nat) : List Label :=
  if s.numFaces[e]? = some 1 then [.along e (edgeAt m e).1, .along e (edgeAt m e).2] else []

/-- The new nodes in the order in which they are made: face by face, then boundary edge by boundary edge. -/
def tasks (m : Mesh P) (s : State) : List Label :=
  (List.range s.facesNodes.length).flatMap (faceTasks s) ++ (List.range m.edges.length).flatMap (rimTasks m s)

/-- The node it belongs to takes part in the refinement. -/
def active (mask : List Mask) (x : Label) : Bool := decide (mask[x.node]? ≠ some .unassigned)

/-- The numbers of the nodes of the refined mesh.  At a node that takes no part the node itself is used. -/
def num (m : Mesh P) (s : State) (mask : List Mask) (x : Label) : Nat :=
  match x with
  | .old n => n
  | x => if active mask x then m.nodes.length + ((tasks m s).filter (active mask)).idxOf x else x.node

/-- The coordinates of the nodes: halfway between the node and the centre of the face, and halfway between the node and the middle of the edge. -/
def position (mid : P → P → P) (m : Mesh P) (t : Tables P) : Label → Option P
  | .old n => (m.nodes[n]?).join
  | .inside f n => halfway mid t.centres[f]? (m.nodes[n]?).join
  | .along e n => halfway mid (halfway mid (m.nodes[(edgeAt m e).1]?).join (m.nodes[(edgeAt m e).2]?).join) (m.nodes[n]?).join

/-- What is joined by the refinement; `mask` tells which nodes are corners. -/
inductive Link (m : Mesh P) (s : State) (mask : Nat → Mask) : Label → Label → Prop
  /-- along a side of a face, inside the face -/
  | side (f e a b : Nat) : Borders s f e → joins (edgeAt m e) a b → Link m s mask (.inside f a) (.inside f b)
  /-- on a boundary edge -/
  | rim (e a b : Nat) : Rim s e → joins (edgeAt m e) a b → Link m s mask (.along e a) (.along e b)
  /-- across an edge between two faces -/
  | across (f g e n : Nat) : f ≠ g → Borders s f e → Borders s g e → touches (edgeAt m e) n → Link m s mask (.inside f n) (.inside g n)
  /-- from a face to its boundary edge -/
  | out (f e n : Nat) : Rim s e → Borders s f e → touches (edgeAt m e) n → Link m s mask (.inside f n) (.along e n)
  /-- past a node of the boundary that is removed -/
  | past (e e' n : Nat) : mask n = .boundary → e ≠ e' → Rim s e → Rim s e' → touches (edgeAt m e) n → touches (edgeAt m e') n →
    Link m s mask (.along e n) (.along e' n)
  /-- from a corner along the boundary -/
  | tip (e n : Nat) : mask n = .corner → Rim s e → touches (edgeAt m e) n → Link m s mask (.old n) (.along e n)
  /-- from a corner into the faces on both sides of an inner edge, and into all its faces when it has more than four edges -/
  | spoke (f e n : Nat) : mask n = .corner → Borders s f e → touches (edgeAt m e) n → (Rim s e → 4 < (listAt m n).length) →
    Link m s mask (.old n) (.inside f n)

/-- The face runs along the edge from its first to its second node. -/
def Forward (m : Mesh P) (s : State) (f e : Nat) : Prop :=
  ∃ (ns es : List Nat) (i : Nat), s.facesNodes[f]? = some ns ∧ s.facesEdges[f]? = some es ∧ es[i]? = some e ∧ ns[i]? = some (edgeAt m e).1

/-- Meshes for which the refinement is described: administrated, with the tables of its faces up to date; every edge has a face, two faces share at most
one edge and lie on different sides of it. -/
structure Net (m : Mesh P) (t : Tables P) : Prop where
  wf : WF m
  noLoop : ∀ i, edgeAt m i ≠ noEdge → (edgeAt m i).1 ≠ (edgeAt m i).2
  fresh : ∀ n i, i ∈ listAt m n → edgeAt m i ≠ noEdge
  valid : ∀ i n, edgeAt m i ≠ noEdge → touches (edgeAt m i) n → ∃ p, m.nodes[n]? = some (some p)
  faces : ∃ cw, Consistent m.edges cw t.faces
  few : t.faces.facesNodes.length ≤ missing
  faced : ∀ i, edgeAt m i ≠ noEdge → t.faces.numFaces[i]? ≠ some 0
  once : ∀ f g e e', f ≠ g → Borders t.faces f e → Borders t.faces g e → Borders t.faces f e' → Borders t.faces g e' → e = e'
  opposite : ∀ f g e, f ≠ g → Borders t.faces f e → Borders t.faces g e → (Forward m t.faces f e ↔ ¬ Forward m t.faces g e)
  centres : t.centres.length = t.faces.facesNodes.length
  types : t.types.length = m.nodes.length

/-! ## Which nodes take part -/

/-- The faces counted around the node. -/
def facesAt (m : Mesh P) (t : Tables P) (n : Nat) : Nat :=
  match facesConnected t.faces t.types n (listAt m n) with
  | .ok fs => fs.countP (· ≠ missing)
  | _ => 0

/-- There is a boundary edge at the node. -/
def OnRim (m : Mesh P) (s : State) (n : Nat) : Prop := ∃ e, Rim s e ∧ touches (edgeAt m e) n

/-- The node is the corner of a face between two boundary edges. -/
def FaceCorner (m : Mesh P) (s : State) (n : Nat) : Prop :=
  ∃ f e e', e ≠ e' ∧ Rim s e ∧ Rim s e' ∧ Borders s f e ∧ Borders s f e' ∧ touches (edgeAt m e) n ∧ touches (edgeAt m e') n

open Classical in
/-- What becomes of the nodes: nodes that are not selected, have at most one edge or have no face take no part; among the others, nodes of type 3, corners
of a face between two boundary edges, boundary nodes that lack a face, and nodes with too many faces are corners; the rest is boundary or inside. -/
noncomputable def nodeMask (m : Mesh P) (t : Tables P) (sel : Nat → Bool) (n : Nat) : Mask :=
  if sel n = false ∨ (listAt m n).length ≤ 1 ∨ facesAt m t n = 0 then .unassigned
  else if t.types[n]? = some 3 ∨ FaceCorner m t.faces n then .corner
  else if OnRim m t.faces n then (if facesAt m t n < (listAt m n).length - 1 then .corner else .boundary)
  else if facesAt m t n > maxEdgesPerNode then .corner
  else .registered

/-- The mask of the nodes of the mesh. -/
noncomputable def masks (m : Mesh P) (t : Tables P) (sel : Nat → Bool) : List Mask := (List.range m.nodes.length).map (nodeMask m t sel)

/-! ## The refined mesh -/

/-- The mask of a node of the mesh before. -/
def maskAt (old : List Mask) (n : Nat) : Mask := (old[n]?).getD .unassigned

/-- How many nodes there are with the new ones. -/
def total (m : Mesh P) (s : State) (old : List Mask) : Nat := m.nodes.length + ((tasks m s).filter (active old)).length

/-- The node is removed by the refinement. -/
def Gone (old : List Mask) (n : Nat) : Prop := maskAt old n = .registered ∨ maskAt old n = .boundary

/-- What the refined mesh looks like. -/
structure Refined (mid : P → P → P) (m : Mesh P) (t : Tables P) (old : List Mask) (m' : Mesh P) : Prop where
  count : m'.nodes.length = total m t.faces old
  adj : ∀ i j, Adj m' i j ↔ ¬ Gone old i ∧ ¬ Gone old j ∧ (Adj m i j ∨ (i ≠ j ∧ ∃ x y, (Link m t.faces (maskAt old) x y ∨ Link m t.faces (maskAt old) y x) ∧
    num m t.faces old x = i ∧ num m t.faces old y = j))
  kept : ∀ i j, Adj m' i j → i < m.nodes.length → (m'.nodes[i]?).join = (m.nodes[i]?).join
  new : ∀ x j, x ∈ tasks m t.faces → active old x = true → Adj m' (num m t.faces old x) j →
    (m'.nodes[num m t.faces old x]?).join = position mid m t x
  bare : ∀ i, (∀ j, ¬ Adj m' i j) → (m'.nodes[i]?).join = none

end Verif.Casulli
