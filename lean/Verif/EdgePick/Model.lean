import Verif.Cache.Model
/-!
# Model: finding and deleting an edge through the API

Models `mkernel_mesh2d_get_edge`, `mkernel_mesh2d_delete_edge` and `mkernel_mesh2d_delete_edge_by_index` with the cached search
trees of `Verif.Cache`.
-/
namespace Verif.EdgePick
open Verif.Mesh Verif.Cache
variable {P B : Type}

/-- `mkernel_mesh2d_get_edge`, `libs/MeshKernelApi/src/MeshKernel.cpp:2381-2409`, for a kernel that exists. -/
def getEdge (g : Geo P B) (s : Cached P B) (p : P) (b : B) : Res (Nat × Cached P B) := findLocationIndex g s p .edges [] b

/-- `mkernel_mesh2d_delete_edge`, `libs/MeshKernelApi/src/MeshKernel.cpp:2332-2360`: the index of the edge, the actions put on
the undo stack, and the mesh. -/
def deleteEdgeAt (g : Geo P B) (s : Cached P B) (p : P) (b : B) : Res (Nat × List (Act P) × Cached P B) := do
  let r ← findLocationIndex g s p .edges [] b
  let acts ← deleteEdgeU r.2.mesh r.1
  let t ← edit r.2 (.deleteEdge r.1)
  .ok (r.1, acts.1, t)

/-- The conversion of an `int` to `UInt`. -/
def toUInt (i : Int) : Nat := (i % 4294967296).toNat

/-- `mkernel_mesh2d_delete_edge_by_index`, `libs/MeshKernelApi/src/MeshKernel.cpp:2362-2379`. -/
def deleteEdgeByIndex (s : Cached P B) (i : Int) : Res (List (Act P) × Cached P B) := do
  let acts ← deleteEdgeU s.mesh (toUInt i)
  let t ← edit s (.deleteEdge (toUInt i))
  .ok (acts.1, t)

/-- Deleting edges at several points, one call after the other, with the same box: the indices and the mesh at the end. -/
def deleteEdgesAt (g : Geo P B) (b : B) : List P → Cached P B → Res (List Nat × Cached P B)
  | [], s => .ok ([], s)
  | p :: ps, s => do
    let r ← deleteEdgeAt g s p b
    let t ← deleteEdgesAt g b ps r.2.2
    .ok (r.1 :: t.1, t.2)

/-- Undo of the recorded actions, the last one first. -/
def undoActs : List (Act P) → Cached P B → Res (Cached P B)
  | [], s => .ok s
  | a :: as, s => do
    let t ← undoActs as s
    restore t a

end Verif.EdgePick
