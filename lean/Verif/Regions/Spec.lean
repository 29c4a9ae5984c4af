import Verif.Regions.Model
import Verif.Mesh.Spec
import Mathlib.Logic.Relation
/-!
# Specification: regions of a mesh
-/
namespace Verif.Regions
open Verif.Mesh
variable {P : Type}

/-- Edge `e` lies on face `f`. -/
def OnFace (fe : List (List Nat)) (f e : Nat) : Prop := ∃ es, fe[f]? = some es ∧ e ∈ es

/-- Two faces share an edge. -/
def Adjacent (fe : List (List Nat)) (f g : Nat) : Prop := ∃ e, OnFace fe f e ∧ OnFace fe g e

/-- One can walk from face `f` to face `g` through shared edges. -/
def Joined (fe : List (List Nat)) : Nat → Nat → Prop := Relation.ReflTransGen (Adjacent fe)

/-- The faces of the region of `f` are exactly those in the duplicate-free list `l`. -/
def IsRegion (fe : List (List Nat)) (f : Nat) (l : List Nat) : Prop :=
  l.Nodup ∧ ∀ g, g ∈ l ↔ g < fe.length ∧ Joined fe f g

/-- The two face tables agree: edge `e` is listed at face `f` exactly when `f` is one of the two
faces of `e`, and all indices are in range. -/
structure Tables (fe : List (List Nat)) (ef : List (Nat × Nat)) : Prop where
  fit : fe.length < missing
  range : ∀ (e : Nat) (p : Nat × Nat), ef[e]? = some p → (p.1 = missing ∨ p.1 < fe.length) ∧ (p.2 = missing ∨ p.2 < fe.length)
  edges : ∀ f e, OnFace fe f e → e < ef.length
  agree : ∀ (f e : Nat) (p : Nat × Nat), f < fe.length → ef[e]? = some p → (OnFace fe f e ↔ p.1 = f ∨ p.2 = f)

/-- A mesh with up to date face tables. -/
structure Proper (fm : FaceMesh P) : Prop where
  tables : Tables fm.facesEdges fm.edgesFaces
  nodesFit : fm.mesh.nodes.length ≤ missing
  edgesFit : fm.mesh.edges.length ≤ missing
  counts : fm.mesh.numEdges.length = fm.mesh.nodes.length
  bounds : ∀ e ∈ fm.mesh.edges,
    e.1 = missing ∨ e.2 = missing ∨ (e.1 < fm.mesh.nodes.length ∧ e.2 < fm.mesh.nodes.length)
  onFaces : ∀ f e, OnFace fm.facesEdges f e → e < fm.mesh.edges.length

/-- The region of face `f` has more faces than that of every face before `f`, and as least as many
as that of every face. -/
def FirstLargest (fe : List (List Nat)) (f : Nat) : Prop :=
  f < fe.length ∧ ∀ g, g < fe.length → ∀ rf rg, IsRegion fe f rf → IsRegion fe g rg →
    rg.length ≤ rf.length ∧ (g < f → rg.length < rf.length)

/-- The edge lies on a face outside the region of `f`. -/
def Outside (fe : List (List Nat)) (f e : Nat) : Prop := ∃ g, OnFace fe g e ∧ ¬ Joined fe f g

end Verif.Regions
