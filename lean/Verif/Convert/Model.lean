import Verif.Basic

/-!
# Converting a mesh to another projection

`mkernel_mesh2d_convert_projection` (`MeshKernel.cpp:1077-1118`).  The formulas of the map projections
come from a library and are parameters; a node is `none` when its coordinates are missing ones.
Deleted edges are not listed, so that edges have no numbers here, and their ends are numbers of nodes.
-/
namespace Verif.Convert

/-- `Projection` (`Definitions.hpp:41-46`). -/
inductive Proj where
  | cartesian
  | spherical
  | accurate
  deriving DecidableEq, Repr

/-- `GetProjectionValue` (`Definitions.cpp:24-46`). -/
def projectionOf (n : Int) : Option Proj :=
  if n = 0 then some .cartesian else if n = 1 then some .spherical
  else if n = 2 then some .accurate else none

/-- The nodes and edges of a mesh, its projection and the search tree of its nodes. -/
structure Mesh (P : Type) where
  nodes : List (Option P)
  edges : List (Nat × Nat)
  proj : Proj
  /-- the points the tree was built from -/
  tree : List (Option P)
  /-- `m_nodesRTreeRequiresUpdate` -/
  refresh : Bool

/-- The parts of a kernel that matter here: the 2D mesh, the projection of the kernel, and a 1D mesh
with its projection. -/
structure Kernel (P : Type) where
  mesh : Mesh P
  own : Proj
  line : Mesh P

/-- The formulas for a zone (`ProjectionConversions.hpp:82-90`, `:151-159`). -/
structure Zone (P : Type) where
  /-- from longitude and latitude to coordinates in the plane -/
  forward : P → Option P
  /-- from coordinates in the plane to longitude and latitude -/
  inverse : P → Option P

/-- What is kept for undo (`MeshConversionAction.cpp:12-13`). -/
abbrev Record (P : Type) := List (Option P) × Proj

/-- Both nodes of the edge are there (`Mesh.cpp:149-152`, `:279-281`). -/
def whole {P : Type} (nodes : List (Option P)) (e : Nat × Nat) : Bool :=
  (nodes[e.1]?.join).isSome && (nodes[e.2]?.join).isSome

/-- Node `i` is an end of an edge (`Mesh.cpp:140-162`). -/
def joined {P : Type} (nodes : List (Option P)) (edges : List (Nat × Nat)) (i : Nat) : Bool :=
  edges.any fun e => whole nodes e && (e.1 == i || e.2 == i)

/-- The part of the administration that changes nodes (`Mesh.cpp:164-188`): those without an edge
become missing. -/
def tidy {P : Type} (nodes : List (Option P)) (edges : List (Nat × Nat)) : List (Option P) :=
  nodes.mapIdx fun i n => if joined nodes edges i then n else none

/-- `MeshConversion::Compute` (`MeshConversion.hpp:114-144`) after its check: valid nodes are
converted, each on its own, the search trees are marked (`Mesh.hpp:541-547`), and nodes and edges are
administrated (`Mesh.cpp:249-293`). -/
def convertMesh {P : Type} (m : Mesh P) (c : P → Option P) (target : Proj) : Mesh P :=
  let nodes := m.nodes.map fun n => n.bind c
  let kept := tidy nodes m.edges
  ⟨kept, m.edges.filter (whole kept), target, m.tree, true⟩

/-- `mkernel_mesh2d_convert_projection` (`MeshKernel.cpp:1087-1111`).  `zone` is `none` for a text that
describes no projection. -/
def convert {P : Type} (k : Kernel P) (n : Int) (zone : Option (Zone P)) :
    Res (Kernel P × Option (Record P)) :=
  match projectionOf n with
  | none => .throw
  | some t =>
    if k.mesh.proj = t then .ok (k, none)
    else
      match k.mesh.proj, zone with
      | .cartesian, some z =>
        .ok (⟨convertMesh k.mesh z.inverse .spherical, .spherical, k.line⟩,
          some (k.mesh.nodes, k.mesh.proj))
      | .spherical, some z =>
        .ok (⟨convertMesh k.mesh z.forward .cartesian, .cartesian, k.line⟩,
          some (k.mesh.nodes, k.mesh.proj))
      | _, _ => .throw

/-- Undo and redo: `MeshConversionAction::Swap` (`MeshConversionAction.cpp:15-25`), called from
`Mesh.cpp:1233-1236` and `:1287-1290`. -/
def swap {P : Type} (m : Mesh P) (r : Record P) : Res (Mesh P × Record P) :=
  if m.nodes.length < r.1.length then .throw
  else .ok (⟨r.1 ++ m.nodes.drop r.1.length, m.edges, r.2, m.tree, m.refresh⟩,
    (m.nodes.take r.1.length, m.proj))

/-- The points a search for nodes looks at (`Mesh.cpp:1165-1172`, with the same box as before). -/
def search {P : Type} (m : Mesh P) : Mesh P × List (Option P) :=
  if m.refresh then (⟨m.nodes, m.edges, m.proj, m.nodes, false⟩, m.nodes) else (m, m.tree)

end Verif.Convert
