import Verif.Mesh.Props
import Verif.Polygons.Basic
import Verif.EdgePick.Model
/-!
# Model: exchanging 1D meshes and contacts with the caller

Models `mkernel_mesh1d_set`, `_add`, `_get_dimensions`, `_get_data` and `mkernel_contacts_set`, `_get_dimensions`, `_get_data`
with the conversions of the arrays. Numbers are rational. The arrays of the caller are lists; reading or writing behind their
end is undefined.
-/
namespace Verif.Exchange
open Verif.Mesh Verif.Polygons
open Verif.EdgePick (toUInt)

/-- `Mesh1D` of the API, `libs/MeshKernelApi/include/MeshKernelApi/Mesh1D.hpp:33-49`. -/
structure Arrays where
  edgeNodes : List Int
  nodeX : List ℚ
  nodeY : List ℚ
  numNodes : Int
  numValidNodes : Int
  numEdges : Int
  numValidEdges : Int
  deriving DecidableEq

/-- `static_cast<int>` of a `UInt`. -/
def toInt (n : Nat) : Int := if n < 2147483648 then (n : Int) else (n : Int) - 4294967296

/-- The loop of `ConvertToEdgeNodesVector`, `libs/MeshKernel/include/MeshKernel/Entities.hpp:159-166`: `k` more edges from
position `i`. -/
def readEdges (a : List Int) : Nat → Nat → Res (List Edge)
  | 0, _ => .ok []
  | k + 1, i => do
    let x ← vget a i
    let y ← vget a (i + 1)
    let r ← readEdges a k (i + 2)
    .ok ((toUInt x, toUInt y) :: r)

/-- A point of the caller as a node; one with a missing coordinate is invalid (`Point.hpp:116-122`). -/
def toNode (x y : ℚ) : Option Pt := if Pt.isValid ⟨x, y⟩ then some ⟨x, y⟩ else none

/-- The loop of `ConvertToNodesVector`, `libs/MeshKernel/include/MeshKernel/Entities.hpp:176-180`. -/
def readNodes (xs ys : List ℚ) : Nat → Nat → Res (List (Option Pt))
  | 0, _ => .ok []
  | k + 1, i => do
    let x ← vget xs i
    let y ← vget ys i
    let r ← readNodes xs ys k (i + 1)
    .ok (toNode x y :: r)

/-- The construction of the 1D mesh: `libs/MeshKernelApi/src/MeshKernel.cpp:603-607`, `Mesh1D.cpp:38-40`, `Mesh.cpp:54-65`. A
vector with a negative size is refused (`Entities.hpp:157,175`). -/
def build (a : Arrays) : Res (Mesh Pt) :=
  if a.numEdges < 0 then .throw else do
  let es ← readEdges a.edgeNodes a.numEdges.toNat 0
  if a.numNodes < 0 then .throw else do
  let ns ← readNodes a.nodeX a.nodeY a.numNodes.toNat 0
  deleteInvalid ⟨ns, es, [], []⟩

/-- `mkernel_mesh1d_set`, `libs/MeshKernelApi/src/MeshKernel.cpp:591-621`: the new 1D mesh. -/
def mesh1dSet (a : Arrays) : Res (Mesh Pt) := build a

/-- `mkernel_mesh1d_add`, `libs/MeshKernelApi/src/MeshKernel.cpp:623-648`, `Mesh.cpp:1014-1019`: the saved nodes and edges, and
the mesh. The projections are equal. -/
def mesh1dAdd (order : Nat → List Nat → List Nat) (m : Mesh Pt) (a : Arrays) : Res ((List (Option Pt) × List Edge) × Mesh Pt) := do
  let b ← build a
  if b.nodes.length = 0 ∨ b.edges.length = 0 then .ok ((m.nodes, m.edges), m) else do
  let r ← administrate order (joinRaw m b)
  .ok ((m.nodes, m.edges), r)

/-- Adding several meshes. -/
def mesh1dAddAll (order : Nat → List Nat → List Nat) : Mesh Pt → List Arrays → Res (Mesh Pt)
  | m, [] => .ok m
  | m, a :: as => do
    let r ← mesh1dAdd order m a
    mesh1dAddAll order r.2 as

/-- `SetMesh1dApiDimension`, `libs/MeshKernelApi/include/MeshKernelApi/Utils.hpp:449-456`, with `GetNumValidNodes` and
`GetNumValidEdges`, `Mesh.cpp:1021-1040`. -/
def dimensions (m : Mesh Pt) (o : Arrays) : Arrays :=
  { o with
    numNodes := m.nodes.length
    numValidNodes := m.nodes.countP (·.isSome)
    numEdges := m.edges.length
    numValidEdges := m.edges.countP (validEdge m.nodes) }

/-- The coordinates of a node; an invalid node is written with the missing value. -/
def ofNode : Option Pt → Pt
  | some p => p
  | none => ⟨missingDouble, missingDouble⟩

/-- The first loop of `SetMesh1dApiData`, `libs/MeshKernelApi/include/MeshKernelApi/Utils.hpp:464-468`, from position `i`. -/
def writeNodes : List (Option Pt) → Nat → Arrays → Res Arrays
  | [], _, o => .ok o
  | v :: vs, i, o => do
    let xs ← vset o.nodeX i (ofNode v).x
    let ys ← vset o.nodeY i (ofNode v).y
    writeNodes vs (i + 1) { o with nodeX := xs, nodeY := ys }

/-- The second loop of `SetMesh1dApiData`, `libs/MeshKernelApi/include/MeshKernelApi/Utils.hpp:470-477`, from position `i`. -/
def writeEdges : List Edge → Nat → Arrays → Res Arrays
  | [], _, o => .ok o
  | e :: es, i, o => do
    let a ← vset o.edgeNodes i (toInt e.1)
    let b ← vset a (i + 1) (toInt e.2)
    writeEdges es (i + 2) { o with edgeNodes := b }

/-- `SetMesh1dApiData`, `libs/MeshKernelApi/include/MeshKernelApi/Utils.hpp:461-479`. -/
def getData (m : Mesh Pt) (o : Arrays) : Res Arrays := do
  let o1 ← writeNodes m.nodes 0 o
  let o2 ← writeEdges m.edges 0 o1
  .ok (dimensions m o2)

/-! ## Contacts -/

/-- `Contacts` of the kernel: `m_mesh1dIndices`, `m_mesh2dIndices`. -/
structure Links where
  one : List Nat
  two : List Nat
  deriving DecidableEq

/-- `Contacts` of the API. -/
structure LinkArrays where
  one : List Int
  two : List Int
  num : Int
  deriving DecidableEq

/-- The loop of `mkernel_contacts_set`, `libs/MeshKernelApi/src/MeshKernel.cpp:1062-1066`. -/
def readLinks (a b : List Int) : Nat → Nat → Res (List Nat × List Nat)
  | 0, _ => .ok ([], [])
  | k + 1, i => do
    let x ← vget a i
    let y ← vget b i
    let r ← readLinks a b k (i + 1)
    .ok (toUInt x :: r.1, toUInt y :: r.2)

/-- `SetIndices`, `libs/MeshKernel/src/Contacts.cpp:475-498`. -/
def setIndices (one two : List Nat) : Res Links :=
  if one = [] then .throw
  else if two = [] then .throw
  else if one.length ≠ two.length then .throw
  else .ok ⟨one, two⟩

/-- `mkernel_contacts_set`, `libs/MeshKernelApi/src/MeshKernel.cpp:1049-1075`: the contacts afterwards. -/
def contactsSet (o : LinkArrays) : Res Links :=
  if o.num < 0 then .throw else do
  let r ← readLinks o.one o.two o.num.toNat 0
  setIndices r.1 r.2

/-- `mkernel_contacts_get_dimensions`, `libs/MeshKernelApi/src/MeshKernel.cpp:1005-1022`. -/
def contactsDimensions (c : Links) (o : LinkArrays) : LinkArrays := { o with num := c.two.length }

/-- The loop of `mkernel_contacts_get_data`, `libs/MeshKernelApi/src/MeshKernel.cpp:1036-1040`: `k` more contacts from `i`. -/
def writeLinks (c : Links) : Nat → Nat → LinkArrays → Res LinkArrays
  | 0, _, o => .ok o
  | k + 1, i, o => do
    let x ← vget c.one i
    let a ← vset o.one i (toInt x)
    let y ← vget c.two i
    let b ← vset o.two i (toInt y)
    writeLinks c k (i + 1) { o with one := a, two := b }

/-- `mkernel_contacts_get_data`, `libs/MeshKernelApi/src/MeshKernel.cpp:1024-1047`. -/
def contactsData (c : Links) (o : LinkArrays) : Res LinkArrays := writeLinks c o.num.toNat 0 o

/-! ## The search trees after undo of an addition -/

/-- `mkernel_mesh2d_add` or `mkernel_mesh1d_add` on a mesh with its trees: `Mesh.cpp:971-1019`. -/
def addCached {P B : Type} (g : Cache.Geo P B) (s : Cache.Cached P B) (rhs : Mesh P) : Res (Cache.Cached P B) :=
  if rhs.nodes.length = 0 ∨ rhs.edges.length = 0 then .ok s else do
  let r ← administrate g.order (joinRaw s.mesh rhs)
  .ok { s with mesh := r, nodesDirty := true, edgesDirty := true }

/-- Undo of it, `Mesh.cpp:1292-1296`: the flags of the trees are not touched. -/
def undoAddCached {P B : Type} (g : Cache.Geo P B) (saved : List (Option P) × List Edge) (s : Cache.Cached P B) : Res (Cache.Cached P B) := do
  let r ← fullSwap g.order saved s.mesh
  .ok { s with mesh := r.2 }

end Verif.Exchange
