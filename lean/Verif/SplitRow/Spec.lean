import Verif.SplitRow.Model
import Verif.Flip.Spec
/-!
# Specification: rows of quadrilaterals, and a mesh with one of them split
-/
namespace Verif.SplitRow
open Verif.Mesh Verif.Faces
open Verif.Polygons (Pt)

/-- Face `f` has four corners. -/
def Quadrilateral (s : State) (f : Nat) : Prop := ∃ ns, s.facesNodes[f]? = some ns ∧ ns.length = 4

/-- Edges `e` and `e'` are opposite sides of the quadrilateral `f`. -/
def Opposite (s : State) (f e e' : Nat) : Prop :=
  Quadrilateral s f ∧ ∃ es i, s.facesEdges[f]? = some es ∧ es[i]? = some e ∧ es[(i + 2) % 4]? = some e'

/-- Face `g` (or none, if it is the missing value) is on the other side of edge `e` than `f`. -/
def Across (s : State) (e f g : Nat) : Prop := ∃ p, s.edgesFaces[e]? = some p ∧ (p = (f, g) ∨ p = (g, f))

/-- From edge `e` into face `f`, through the quadrilaterals `fs`, each left by the opposite edge (`es`), up to edge `e1` with face `f1` behind it. -/
inductive Trail (s : State) : Nat → Nat → List Nat → List Nat → Nat → Nat → Prop
  | nil (e f : Nat) : Trail s e f [] [] e f
  | step {e f e' g : Nat} {es fs : List Nat} {e1 f1 : Nat} (h : Opposite s f e e') (a : Across s e' f g) (t : Trail s e' g es fs e1 f1) :
      Trail s e f (e' :: es) (f :: fs) e1 f1

/-- A trail that ends at the boundary or at a face that is not a quadrilateral. -/
def Arm (s : State) (e f : Nat) (es fs : List Nat) : Prop := ∃ e1 f1, Trail s e f es fs e1 f1 ∧ ¬ Quadrilateral s f1

/-- A trail that comes back to where it started. -/
def Ring (s : State) (e f : Nat) (es fs : List Nat) : Prop := Trail s e f es fs e f ∧ fs ≠ []

/-- An edge is cut if all its faces are quadrilaterals. -/
def Cut (s : State) (e : Nat) : Prop := ∀ f, Borders s f e → Quadrilateral s f

instance (s : State) (f : Nat) : Decidable (Quadrilateral s f) :=
  match h : s.facesNodes[f]? with
  | some ns => if hl : ns.length = 4 then isTrue ⟨ns, h, hl⟩ else isFalse fun ⟨ns', h', hl'⟩ => hl (by rw [h] at h'; cases h'; exact hl')
  | none => isFalse fun ⟨_, h', _⟩ => by rw [h] at h'; cases h'

/-- The faces that have `e` as a side. -/
def facesAt (s : State) (e : Nat) : List Nat := (List.range s.facesEdges.length).filter (fun f => decide (e ∈ (s.facesEdges[f]?).getD []))

/-- Which edges are cut. -/
def cut (s : State) (e : Nat) : Bool := (facesAt s e).all (fun f => decide (Quadrilateral s f))

/-- The numbers of the new nodes on the edges of a row, from number `n` on; none on edges that are not cut. -/
def marks (s : State) : Nat → List Nat → List (Option Nat)
  | _, [] => []
  | n, e :: es => if cut s e then some n :: marks s (n + 1) es else none :: marks s n es

/-- The halves of the cut edges. -/
def halves (ends : Nat → Edge) : List Nat → List (Option Nat) → List Edge
  | e :: es, some x :: xs => ((ends e).1, x) :: (x, (ends e).2) :: halves ends es xs
  | _ :: es, none :: xs => halves ends es xs
  | _, _ => []

/-- The new edges inside a quadrilateral with the opposite sides `p` and `q`: one that joins their new nodes, or two from the new node of one side to the
ends of the other. -/
def bridge (p q : Edge) : Option Nat → Option Nat → List Edge
  | some x, some y => [(x, y)]
  | some x, none => [(q.1, x), (x, q.2)]
  | none, some y => [(p.1, y), (y, p.2)]
  | none, none => []

/-- The new edges inside the quadrilaterals of a row. -/
def bridges (ends : Nat → Edge) : List Nat → List (Option Nat) → List Edge
  | e :: e' :: es, x :: y :: xs => bridge (ends e) (ends e') x y ++ bridges ends (e' :: es) (y :: xs)
  | _, _ => []

/-- The middle of edge `e`. -/
def middle (mid : Pt → Pt → Pt) (m : Mesh Pt) (e : Nat) : Option Pt :=
  mean mid (m.nodes[(edgeAt m e).1]?).join (m.nodes[(edgeAt m e).2]?).join

/-- Mesh `m'` is `m` with the edges `row` cut in the middle if they can be, their halves, and the edges `inner`, added. -/
structure SplitBy (mid : Pt → Pt → Pt) (s : State) (m m' : Mesh Pt) (row : List Nat) (inner : List Edge) : Prop where
  nodes : m'.nodes = m.nodes ++ (row.filter (cut s)).map (middle mid m)
  edges : ∃ new, m'.edges = (m.edges.mapIdx fun e p => if e ∈ row ∧ cut s e = true then noEdge else p) ++ new ∧
    new.Perm (halves (edgeAt m) row (marks s m.nodes.length row) ++ inner)

/-- The corners of the polygon are joined, one after the other, by edges of the mesh. -/
def Outlined (m : Mesh Pt) (poly : List Nat) : Prop :=
  ∀ i, i < poly.length → ∃ u v e, poly[i]? = some u ∧ poly[(i + 1) % poly.length]? = some v ∧ joins (edgeAt m e) u v

/-- The polygons into which the quadrilateral `a b c d` is divided, by a new node `x` on `a b` and a new node `y` on `c d`. -/
def parts (a b c d : Nat) : Option Nat → Option Nat → List (List Nat)
  | some x, some y => [[a, x, y, d], [x, b, c, y]]
  | some x, none => [[a, x, d], [x, b, c], [x, c, d]]
  | none, some y => [[a, b, y], [b, c, y], [a, y, d]]
  | none, none => [[a, b, c, d]]

/-- In mesh `m'`, the faces of the row are divided by the new nodes `new` on the edges `row`, and the other faces are as before. -/
structure Divided (s : State) (m m' : Mesh Pt) (row : List Nat) (new : List (Option Nat)) (faces : List Nat) : Prop where
  inside : ∀ (i f : Nat), faces[i]? = some f → ∃ ns k a b c d e e' x y, s.facesNodes[f]? = some ns ∧ ns.rotate k = [a, b, c, d] ∧
    row[i]? = some e ∧ row[i + 1]? = some e' ∧ joins (edgeAt m e) a b ∧ joins (edgeAt m e') c d ∧ new[i]? = some x ∧ new[i + 1]? = some y ∧
    ∀ p ∈ parts a b c d x y, Outlined m' p
  outside : ∀ (f : Nat) ns, f ∉ faces → s.facesNodes[f]? = some ns → Outlined m' ns

/-- Every node is the end of an edge, and every edge has valid nodes as ends: the mesh an administration leaves as it is. -/
def Whole (m : Mesh Pt) : Prop :=
  (∀ (n : Nat) p, m.nodes[n]? = some (some p) → Used m n) ∧ ∀ e, edgeAt m e ≠ noEdge → (seg m.nodes (edgeAt m e)).isSome

end Verif.SplitRow
