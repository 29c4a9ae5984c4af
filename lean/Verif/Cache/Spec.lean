import Verif.Cache.Model
import Verif.Mesh.Spec
import Mathlib.Algebra.Order.Field.Rat
/-!
# Specification: what a location query has to answer

The locations of a mesh are its valid nodes, or the midpoints of its edges, *as they are now*.  A query
has to answer with a location in the given box such that no other one in the box is closer.
-/
namespace Verif.Cache
open Verif.Mesh
variable {P B : Type}

/-- Node `i` is at `q`. -/
def NodeIs (m : Mesh P) (i : Nat) (q : P) : Prop := m.nodes[i]? = some (some q)

/-- The midpoint of edge `i`, if it has one. -/
def centreAt (g : Geo P B) (m : Mesh P) (i : Nat) : Option P :=
  if (edgeAt m i).1 = missing ∨ (edgeAt m i).2 = missing then none
  else g.mid (m.nodes[(edgeAt m i).1]?.join) (m.nodes[(edgeAt m i).2]?.join)

/-- Edge `i` has its midpoint at `q`. -/
def EdgeIs (g : Geo P B) (m : Mesh P) (i : Nat) (q : P) : Prop := centreAt g m i = some q

/-- `i` is a location in the box and no location in the box is closer to `p`. -/
def Nearest (g : Geo P B) (dist : P → P → ℚ) (at' : Nat → P → Prop) (b : B) (p : P) (i : Nat) : Prop :=
  ∃ q, at' i q ∧ g.contains b q = true ∧ ∀ j r, at' j r → g.contains b r = true → dist p q ≤ dist p r

/-- There is no location in the box. -/
def NoneIn (g : Geo P B) (at' : Nat → P → Prop) (b : B) : Prop := ∀ j r, at' j r → g.contains b r = false

/-- The search returns a nearest point when there is a point (`boost::geometry::index::nearest`). -/
def SearchOk (g : Geo P B) (dist : P → P → ℚ) : Prop :=
  ∀ t p, t ≠ [] → ∃ i q, g.nearest t p = some i ∧ (q, i) ∈ t ∧ ∀ v ∈ t, dist p q ≤ dist p v.1

/-- Restrictions under which the nodes tree follows the mesh: all queries use box `b`, no undo or redo of a
translation of nodes, and no query for faces at a time when `Administrate` changes nodes. -/
def CalmN (g : Geo P B) (b : B) (s : Cached P B) : Op P B → Prop
  | .edit _ => True
  | .commit a => ∀ l, a ≠ .translate l
  | .restore a => ∀ l, a ≠ .translate l
  | .query l b' => b' = b ∧ (l = .faces → ∀ m, administrate g.order s.mesh = .ok m → m.nodes = s.mesh.nodes)

/-- No edge has node `n` as an end. -/
def Free (m : Mesh P) (n : Nat) : Prop := ∀ i, ¬ touches (edgeAt m i) n

/-- Restrictions under which the edges tree follows the mesh.  On top of the above: a node that comes or goes
has no edges, but for those in its list when it is deleted by `DeleteNode`. -/
def CalmE (g : Geo P B) (b : B) (s : Cached P B) : Op P B → Prop
  | .edit (.insertNode _) => Free s.mesh s.mesh.nodes.length
  | .edit (.deleteNode n) => ∀ i, touches (edgeAt s.mesh i) n → i ∈ listAt s.mesh n
  | .edit _ => True
  | .commit (.translate _) => False
  | .commit (.addNode i _) => Free s.mesh i
  | .commit (.deleteNode i _) => Free s.mesh i
  | .commit _ => True
  | .restore (.translate _) => False
  | .restore (.addNode i _) => Free s.mesh i
  | .restore (.deleteNode i _) => Free s.mesh i
  | .restore _ => True
  | .query l b' => b' = b ∧
    (l = .faces → ∀ m, administrate g.order s.mesh = .ok m → m.nodes = s.mesh.nodes ∧ m.edges = s.mesh.edges)

/-- The restrictions hold at every step of a run. -/
def Calm (g : Geo P B) (c : Cached P B → Op P B → Prop) : Cached P B → List (Op P B) → Prop
  | _, [] => True
  | s, o :: os => c s o ∧ ∀ s1, step g s o = .ok s1 → Calm g c s1 os

end Verif.Cache
