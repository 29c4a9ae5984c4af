import Verif.Faces.Spec
import Verif.Faces.GivenModel
/-!
# Specification: faces handed in with a mesh
-/
namespace Verif.Faces
open Verif.Mesh

/-- A closed polygon of at least three different nodes; `es` are the edges of the mesh that are its sides. -/
structure Ring (edges : List Edge) (ns es : List Nat) : Prop where
  atLeast : 3 ≤ ns.length
  len : es.length = ns.length
  nodesDistinct : ns.Nodup
  sides : ∀ i, i < ns.length → Side edges ns es i

/-- The only edges between nodes of the polygon are its sides. -/
def NoChord (edges : List Edge) (ns es : List Nat) : Prop :=
  ∀ (e : Nat) p, edges[e]? = some p → p.1 ∈ ns → p.2 ∈ ns → e ∈ es

/-- No edge is a side of more than two polygons. -/
def AtMostTwo (sides : List (List Nat)) : Prop := ∀ e, (sides.filter (fun es => decide (e ∈ es))).length ≤ 2

end Verif.Faces
