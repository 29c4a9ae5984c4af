import Verif.Mesh.Spec
import Verif.Faces.Spec
import Mathlib.Logic.Relation
/-!
# Specification: a mesh refines another one

What C53 says: nodes stay where they are, and every edge is still there, cut in pieces.
-/
namespace Verif.Refine
open Verif.Mesh Verif.Faces
variable {P : Type}

/-- `x` and `y` are the ends of an edge, and both lie in the set `S` of points. -/
def Step (m : Mesh P) (S : P → Prop) (x y : Nat) : Prop :=
  ∃ i, joins (edgeAt m i) x y ∧ (∃ p, m.nodes[x]? = some (some p) ∧ S p) ∧ ∃ q, m.nodes[y]? = some (some q) ∧ S q

/-- From `x` to `y` along one or more edges whose ends all lie in `S`. -/
def Path (m : Mesh P) (S : P → Prop) : Nat → Nat → Prop := Relation.TransGen (Step m S)

/-- With two points, the set contains the point in the middle. -/
def MidClosed (mid : P → P → P) (S : P → Prop) : Prop := ∀ p q, S p → S q → S (mid p q)

/-- `m'` is a refinement of `m`: the nodes of the edges of `m` have the same numbers and places, and between the ends of an edge of `m`
there is a path of edges in `m'` that does not leave any set containing the two ends and, with two points, the point in the middle
between them - for instance the straight line between the ends. -/
structure Refines (mid : P → P → P) (m m' : Mesh P) : Prop where
  nodes : ∀ n p, Used m n → m.nodes[n]? = some (some p) → m'.nodes[n]? = some (some p)
  edges : ∀ S, MidClosed mid S → ∀ x y, Step m S x y → Path m' S x y

/-! ## One round of splitting, without hanging nodes

`mask` marks the edges and `face` the faces to be split: they are marked unless the entry is 0. -/

/-- The marked ones among the numbers below `n`. -/
def markedUpTo (mask : List Int) (n : Nat) : List Nat := (List.range n).filter (fun e => mask.getD e 0 != 0)

/-- The new node at a marked edge: the middles are numbered in the order of the edges, after the old nodes. -/
def middleNo (m : Mesh P) (mask : List Int) (e : Nat) : Nat := m.nodes.length + (markedUpTo mask e).length

/-- The point in the middle of an edge. -/
def midPoint (mid : P → P → P) (m : Mesh P) (e : Nat) : Option P :=
  (seg m.nodes (edgeAt m e)).map (fun s => mid s.1 s.2)

/-- The sides of a face. -/
def sidesOf (st : State) (f : Nat) : List Nat := (st.facesEdges[f]?).getD []

/-- The new nodes at the sides of a face, in the order of the sides. -/
def sideMiddles (m : Mesh P) (mask : List Int) (es : List Nat) : List Nat :=
  (es.filter (fun e => mask.getD e 0 != 0)).map (middleNo m mask)

/-- A marked face with at least four sides, more than two of them marked, gets a node inside. -/
def hasCentre (st : State) (mask face : List Int) (f : Nat) : Bool :=
  face.getD f 0 != 0 && decide (4 ≤ (sidesOf st f).length) && decide (2 < ((sidesOf st f).filter (fun e => mask.getD e 0 != 0)).length)

/-- The faces below `n` that get a node inside. -/
def centresUpTo (st : State) (mask face : List Int) (n : Nat) : List Nat := (List.range n).filter (hasCentre st mask face)

/-- The new node inside a face: they are numbered in the order of the faces, after the middles of the edges. -/
def centreNo (m : Mesh P) (st : State) (mask face : List Int) (f : Nat) : Nat :=
  m.nodes.length + (markedUpTo mask m.edges.length).length + (centresUpTo st mask face f).length

/-- Each entry with the next one, the last one with the first. -/
def ring (l : List Nat) : List Edge := l.zip (l.drop 1 ++ l.take 1)

/-- The new edges inside a face: from the node inside to the middles of the sides; with only two middles, the edge between them; in a triangle, the
edges between the middles. -/
def faceEdges (m : Mesh P) (st : State) (mask face : List Int) (f : Nat) : List Edge :=
  let ns := sideMiddles m mask (sidesOf st f)
  if face.getD f 0 = 0 then []
  else if (sidesOf st f).length < 4 then ring ns
  else match ns with
    | [] => []
    | [_] => []
    | [x, y] => [(x, y)]
    | _ => ns.map (fun n => (n, centreNo m st mask face f))

/-- The nodes after the round. -/
def roundNodes (mid : P → P → P) (centre : Nat → P) (m : Mesh P) (st : State) (mask face : List Int) : List (Option P) :=
  m.nodes ++ (markedUpTo mask m.edges.length).map (midPoint mid m) ++ (centresUpTo st mask face st.facesEdges.length).map (fun f => some (centre f))

/-- The old edges after the round: a marked one ends at its middle. -/
def halved (m : Mesh P) (mask : List Int) (e : Nat) : Edge :=
  if mask.getD e 0 = 0 then edgeAt m e else ((edgeAt m e).1, middleNo m mask e)

/-- The edges after the round: the old ones, those inside the faces, the second halves of the marked ones. -/
def roundEdges (m : Mesh P) (st : State) (mask face : List Int) : List Edge :=
  (List.range m.edges.length).map (halved m mask) ++ (List.range st.facesEdges.length).flatMap (faceEdges m st mask face) ++
    (markedUpTo mask m.edges.length).map (fun e => (middleNo m mask e, (edgeAt m e).2))

/-- The mark of a new node at an edge: 1 when both ends have 1, 0 when both have 0, else -1. -/
def middleMark (node : List Int) (a : Edge) : Int :=
  if node.getD a.1 0 = 1 ∧ node.getD a.2 0 = 1 then 1 else if node.getD a.1 0 = 0 ∧ node.getD a.2 0 = 0 then 0 else -1

/-- The mark of a new node in a face: 1 when all nodes of the face have 1, else -1. -/
def centreMark (node : List Int) (ns : List Nat) : Int := if ∀ n ∈ ns, node.getD n 0 = 1 then 1 else -1

/-- The node marks after the round. -/
def roundMarks (m : Mesh P) (st : State) (mask face node : List Int) : List Int :=
  node ++ (markedUpTo mask m.edges.length).map (fun e => middleMark node (edgeAt m e)) ++
    (centresUpTo st mask face st.facesEdges.length).map (fun f => centreMark node ((st.facesNodes[f]?).getD []))

/-- A mesh with faces and marks, without hanging nodes. -/
structure Ready (m : Mesh P) (st : State) (mask face node : List Int) (bro : List Nat) : Prop where
  lists : m.nodesEdges.length = m.nodes.length
  counts : m.numEdges.length = m.nodes.length
  fits : m.nodes.length + (markedUpTo mask m.edges.length).length + (centresUpTo st mask face st.facesEdges.length).length ≤ missing
  edgesFit : m.edges.length ≤ missing
  placed : ∀ e : Nat, e < m.edges.length → mask.getD e 0 ≠ 0 → (seg m.nodes (edgeAt m e)).isSome
  masks : mask.length = m.edges.length
  marks : node.length = m.nodes.length
  faces : face.length = st.facesEdges.length
  corners : st.facesNodes.length = st.facesEdges.length
  noHanging : bro = List.replicate m.edges.length missing
  sides : ∀ (f : Nat) es, st.facesEdges[f]? = some es → ∀ e ∈ es, e < m.edges.length
  ends : ∀ (f : Nat) ns, st.facesNodes[f]? = some ns → ∀ n ∈ ns, n < m.nodes.length

/-- A marked face with six or more marked sides. -/
def Full (st : State) (mask face : List Int) (f : Nat) : Prop :=
  face.getD f 0 ≠ 0 ∧ 6 ≤ ((sidesOf st f).filter (fun e => mask.getD e 0 != 0)).length

/-! ## Which faces and edges -/

/-- `e` and `f` have a node in common that lies in the middle between their other ends, and they are listed there. -/
def BrotherAt (middle : Option P → Option P → Option P → Bool) (m : Mesh P) (n e f : Nat) : Prop :=
  ∃ l, m.nodesEdges[n]? = some l ∧ e ∈ l ∧ f ∈ l ∧ ∃ a b x y z, m.edges[e]? = some a ∧ m.edges[f]? = some b ∧ m.nodes[otherNode a n]? = some x ∧
    m.nodes[otherNode b n]? = some y ∧ m.nodes[n]? = some z ∧ (middle x y z = true ∨ middle y x z = true)

/-- A face is active: at the first level it has a node that is neither outside nor at the perimeter, later on all its nodes are inside. -/
def Active (level : Nat) (node : List Int) (ns : List Nat) : Prop :=
  if level = 0 then ∃ n ∈ ns, node.getD n 0 ≠ 0 ∧ node.getD n 0 ≠ -2 else ∀ n ∈ ns, node.getD n 0 = 1

end Verif.Refine
