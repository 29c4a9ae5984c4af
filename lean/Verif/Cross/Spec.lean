import Verif.Cross.Model
/-!
# Specification: exactly the edges and faces that are crossed
-/
namespace Verif.Cross

/-- Some segment of the polyline crosses the edge. -/
def Crossed (w : Data) (e : Nat) : Prop := ∃ i, i < w.numSeg ∧ w.hit i e = true

/-- The edge is a side of the face. -/
def Side (w : Data) (f e : Nat) : Prop := ∃ es, w.facesEdges[f]? = some es ∧ e ∈ es

/-- The lists of edges and faces agree, and what crosses is near. -/
structure Fits (w : Data) : Prop where
  few : w.facesEdges.length ≤ w.edgesFaces.length
  faces : ∀ (f : Nat) es, w.facesEdges[f]? = some es → es.length ≤ 6 ∧ es.Nodup ∧ ∀ e ∈ es, e < w.edgesFaces.length
  places : ∀ (e f : Nat) p, w.edgesFaces[e]? = some p → ((f ≠ missing ∧ (f = p.1 ∨ f = p.2)) ↔ Side w f e)
  near : ∀ i e, w.hit i e = true → w.near i e = true

/-- Every edge that is crossed has a face. -/
def CrossedHaveFaces (w : Data) : Prop := ∀ e, e < w.edgesFaces.length → Crossed w e → ∃ f, Side w f e

/-- What is found is what is crossed: each crossed edge with a segment that crosses it, and the faces that have one, each
with crossed edges of its own, without repetition. -/
structure Exact (w : Data) (s : St) : Prop where
  edgesLen : s.found.length = w.edgesFaces.length
  facesLen : s.faces.length = w.facesEdges.length
  sound : ∀ e i : Nat, s.found[e]? = some (some i) → i < w.numSeg ∧ w.hit i e = true
  complete : ∀ e, e < w.edgesFaces.length → Crossed w e → ∃ i, s.found[e]? = some (some i)
  faces : ∀ (f : Nat) l, s.faces[f]? = some l → (l ≠ [] ↔ ∃ e, Side w f e ∧ Crossed w e)
  sides : ∀ (f : Nat) l, s.faces[f]? = some l → l.Nodup ∧ ∀ e ∈ l, Side w f e ∧ Crossed w e

end Verif.Cross
