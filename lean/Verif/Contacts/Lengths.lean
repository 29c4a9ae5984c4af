import Verif.Basic
import Mathlib.Order.Defs.LinearOrder

/-!
# How far from a 1D node faces are sought

`mkernel_contacts_compute_multiple`, and `mkernel_contacts_compute_boundary` without a search radius,
look for faces as far from a 1D node as its longest edge.  The lengths of the edges are computed once
and kept in the 1D mesh (`Mesh.cpp:885-901`), which lives on between the calls (`Contacts.hpp:170`,
`MeshKernel.cpp:3749`).  Simplifications: no edge is deleted, nodes have at most sixteen edges, and the
edges of a node are listed in the order of their numbers, which does not matter for a maximum.
-/
namespace Verif.Contacts.Lengths

/-- A 1D mesh with the lengths it keeps, `m_edgeLengths` (`Mesh.hpp:475`). -/
structure Line (P R : Type) where
  pos : List P
  edges : List (Nat × Nat)
  lengths : List R

/-- `mkernel_mesh1d_set` makes a new 1D mesh (`MeshKernel.cpp:612`), with no lengths. -/
def make {P R : Type} (pos : List P) (edges : List (Nat × Nat)) : Line P R := ⟨pos, edges, []⟩

/-- The edges of a node (`Mesh.cpp:68-119`). -/
def edgesAt (edges : List (Nat × Nat)) (n : Nat) : List Nat :=
  (List.range edges.length).filter fun e =>
    match edges[e]? with
    | some (a, b) => a == n || b == n
    | none => false

/-- `ComputeEdgesLengths` (`Mesh.cpp:552-568`). -/
def measure {P R : Type} (d : P → P → R) (pos : List P) : List (Nat × Nat) → Res (List R)
  | [] => .ok []
  | e :: es => (vget pos e.1).bind fun p => (vget pos e.2).bind fun q =>
      (measure d pos es).bind fun ls => .ok (d p q :: ls)

/-- The loop over the edges of a node (`Mesh.cpp:893-898`); `none` is the lowest number. -/
def longest {R : Type} [LinearOrder R] (lengths : List R) : List Nat → Option R → Res (Option R)
  | [], b => .ok b
  | e :: es, b => (vget lengths e).bind fun l =>
      longest lengths es (some (match b with | none => l | some x => max x l))

/-- `ComputeMaxLengthSurroundingEdges` (`Mesh.cpp:885-901`): the mesh afterwards and the length. -/
def radius {P R : Type} [LinearOrder R] (d : P → P → R) (m : Line P R) (n : Nat) :
    Res (Line P R × Option R) :=
  (if m.lengths.isEmpty then measure d m.pos m.edges else .ok m.lengths).bind fun ls =>
    (longest ls (edgesAt m.edges n) none).bind fun r => .ok (⟨m.pos, m.edges, ls⟩, r)

/-- The radii for a list of nodes one after the other (`Contacts.cpp:170-177`, `:401-412`). -/
def radii {P R : Type} [LinearOrder R] (d : P → P → R) :
    List Nat → Line P R → Res (Line P R × List (Option R))
  | [], m => .ok (m, [])
  | n :: ns, m => (radius d m n).bind fun s => (radii d ns s.1).bind fun t => .ok (t.1, s.2 :: t.2)

/-- `mkernel_mesh1d_add` (`MeshKernel.cpp:640`): `Mesh::operator+=` (`Mesh.cpp:971-1012`) for meshes of
the same projection. -/
def add {P R : Type} (m : Line P R) (pos : List P) (edges : List (Nat × Nat)) : Line P R :=
  if pos.length = 0 ∨ edges.length = 0 then m
  else ⟨m.pos ++ pos, m.edges ++ edges.map fun e => (e.1 + m.pos.length, e.2 + m.pos.length),
    m.lengths⟩

/-- Undo of adding: nodes and edges are exchanged with the stored ones; undo of the
contacts before it gives back the same 1D mesh with its lengths (`MKStateUndoAction.cpp:52`) (`Mesh.cpp:1292-1296`,
`FullUnstructuredGridUndo.cpp:11-15`). -/
def undo {P R : Type} (m old : Line P R) : Line P R := ⟨old.pos, old.edges, m.lengths⟩

end Verif.Contacts.Lengths
