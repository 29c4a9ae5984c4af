import Verif.Curvi.CleanLemmas
import Verif.Curvi.BoundaryModel
/-!
# Specification: the boundary of a block of a curvilinear grid
-/
namespace Verif.Curvi
variable {P : Type} [PointLike P]

/-- Face `(n, m)` lies in the block and its four nodes are valid. -/
def FaceIn (g : Grid P) (ll ur : Node) (f : Nat × Nat) : Prop :=
  (ll.1 ≤ f.1 ∧ f.1 < ur.1) ∧ (ll.2 ≤ f.2 ∧ f.2 < ur.2) ∧ faceValid g f.1 f.2 = true

/-- The sides of face `(n, m)`, each from its smaller to its larger node. -/
def sides (n m : Nat) : List CEdge :=
  [((n, m), (n, m + 1)), ((n, m + 1), (n + 1, m + 1)), ((n + 1, m), (n + 1, m + 1)), ((n, m), (n + 1, m))]

/-- The edge is a side of exactly one face of the block. -/
def OnBoundary (g : Grid P) (ll ur : Node) (e : CEdge) : Prop :=
  ∃ f, FaceIn g ll ur f ∧ e ∈ sides f.1 f.2 ∧ ∀ f', FaceIn g ll ur f' → e ∈ sides f'.1 f'.2 → f' = f

/-- The steps of a polygon. -/
def steps {α : Type} : List α → List (α × α)
  | a :: b :: l => (a, b) :: steps (b :: l)
  | _ => []

/-- The step goes along the edge, in one of the two directions. -/
def Along (e : CEdge) (s : Node × Node) : Prop := s = e ∨ s = (e.2, e.1)

instance (e : CEdge) (s : Node × Node) : Decidable (Along e s) := by unfold Along; infer_instance

/-- A closed polygon. -/
def ClosedPolygon {α : Type} (l : List α) : Prop := ∃ a mid, mid ≠ [] ∧ l = a :: mid ++ [a]

/-- Lists with separators between them. -/
def separated {α : Type} (sep : α) : List (List α) → List α
  | [] => []
  | [l] => l
  | l :: k :: ls => l ++ sep :: separated sep (k :: ls)

end Verif.Curvi
