import Verif.Mesh.UndoModel
import Mathlib.Algebra.Order.Field.Rat
/-!
# Model: merging the nodes that lie close together

Models `Mesh::MergeNodesInPolygon` (`libs/MeshKernel/src/Mesh.cpp:408-466`) with the search tree it uses and the two calls of the interface.  Merging
two nodes is `Verif.Mesh.mergeTwoNodesU`, the administration `Verif.Mesh.administrate`.  When two nodes are close, how far apart they are and in which
order the tree reports its answers are parameters.
-/
namespace Verif.MergeClose
open Verif.Mesh
variable {P : Type}

/-- What depends on coordinates and on the tree. -/
structure Env (P : Type) where
  /-- `close d p q`: the query for `p` with distance `d` reports a point at `q`, `libs/MeshKernel/include/MeshKernel/Utilities/RTree.hpp:214-225` -/
  close : ℚ → P → P → Bool
  /-- the order in which the tree reports the points it found, `RTree.hpp:222-225` -/
  report : List Nat → List Nat
  /-- `ComputeDistance` -/
  distance : P → P → ℚ
  /-- the order of the edges around a node, `Mesh.cpp:882` -/
  order : Nat → List Nat → List Nat

/-- `Polygons::IsPointInPolygon(point, 0)`, `libs/MeshKernel/src/Polygons.cpp:291-304`, with `PolygonalEnclosure::Contains`,
`libs/MeshKernel/src/PolygonalEnclosure.cpp:97-126`: without polygons every point counts, also an invalid one; otherwise the first polygon decides.  The
polygons are given by their tests. -/
def inFirst (polygons : List (P → Bool)) (p : Option P) : Bool :=
  match polygons, p with
  | [], _ => true
  | _ :: _, none => false
  | c :: _, some q => c q

/-- `originalNodeIndices`, the selected nodes, `Mesh.cpp:412-426`. -/
def selected (polygons : List (P → Bool)) (m : Mesh P) : List Nat :=
  (List.range m.nodes.length).filter (fun i => inFirst polygons (m.nodes[i]?).join)

/-- The points of the tree: `m_points` (`RTree.hpp:200`), each with the position it was built from; `none` for a point that has been removed. -/
abbrev Tree (P : Type) := List (Option (P × Nat))

/-- `BuildTreeFromVector`, `RTree.hpp:161-175`: points that are invalid are left out, so the ones that follow move forward. -/
def build (points : List (Option P)) : Tree P :=
  points.zipIdx.filterMap (fun q => q.1.map (fun p => some (p, q.2)))

/-- `Empty`, `RTree.hpp:148`. -/
def empty (t : Tree P) : Bool := t.all Option.isNone

/-- `SearchPoints`, `RTree.hpp:206-235`.  Simplification: the search around an invalid point finds nothing (in the code it looks around
(-999, -999)). -/
def find (env : Env P) (d : ℚ) (t : Tree P) (p : Option P) : Res (List Nat) :=
  if empty t then .throw
  else
    match p with
    | none => .ok []
    | some p => .ok (env.report (((t.filterMap id).filter (fun q => env.close d p q.1)).map Prod.snd))

/-- `DeleteNode`, `RTree.hpp:284-297`: the argument is a position in `m_points`. -/
def remove (t : Tree P) (i : Nat) : Res (Tree P) := if empty t then .throw else vset t i none

/-- The loop over the answers, `Mesh.cpp:452-460`: actions recorded, tree and mesh. -/
def mergeFound (sel : List Nat) (i : Nat) : List Nat → Tree P → Mesh P → Res (List (Act P) × Tree P × Mesh P)
  | [], t, m => .ok ([], t, m)
  | r :: rs, t, m =>
    if r ≠ i then do
      let a ← vget sel i
      let b ← vget sel r
      let x ← mergeTwoNodesU m a b
      let t' ← remove t i
      let y ← mergeFound sel i rs t' x.2
      .ok (x.1 ++ y.1, y.2)
    else mergeFound sel i rs t m

/-- One round of the loop over the selected nodes, `Mesh.cpp:447-461`. -/
def round (env : Env P) (d : ℚ) (sel : List Nat) (points : List (Option P)) (i : Nat) (t : Tree P) (m : Mesh P) :
    Res (List (Act P) × Tree P × Mesh P) := do
  let p ← vget points i
  let found ← find env d t p
  if found.length > 1 then mergeFound sel i found t m else .ok ([], t, m)

/-- The loop over the selected nodes, `Mesh.cpp:445-462`, from number `i` on. -/
def rounds (env : Env P) (d : ℚ) (sel : List Nat) (points : List (Option P)) : Nat → Nat → Tree P → Mesh P → Res (List (Act P) × Mesh P)
  | 0, _, _, m => .ok ([], m)
  | k + 1, i, t, m => do
    let x ← round env d sel points i t m
    let y ← rounds env d sel points k (i + 1) x.2.1 x.2.2
    .ok (x.1 ++ y.1, y.2)

/-- `MergeNodesInPolygon`, `Mesh.cpp:408-466`: nothing when no node is selected, otherwise the recorded actions and the mesh afterwards.  The changes
made by the two administrations (`Mesh.cpp:437` and `464`) are not recorded. -/
def mergeNodes (env : Env P) (polygons : List (P → Bool)) (d : ℚ) (m : Mesh P) : Res (Option (List (Act P)) × Mesh P) :=
  let sel := selected polygons m
  if sel.isEmpty then .ok (none, m)
  else do
    let points := sel.map (fun i => (m.nodes[i]?).join)
    let m1 ← administrate env.order m
    let x ← rounds env d sel points sel.length 0 (build points) m1
    let m2 ← administrate env.order x.2
    .ok (some x.1, m2)

/-- The length of an edge, `ComputeEdgesLengths`, `Mesh.cpp:552-568`: the missing value for a deleted edge.  Simplification: the length of an edge with
an invalid end is the missing value too. -/
def lengthOf (env : Env P) (m : Mesh P) (e : Edge) : ℚ :=
  match (m.nodes[e.1]?).join, (m.nodes[e.2]?).join with
  | some p, some q => env.distance p q
  | _, _ => -999

/-- The condition of the loop, `Mesh.cpp:578-579`: the second flag is only read when the first is not set. -/
def atSelected (flags : List Bool) (e : Edge) : Res Bool := do
  let a ← vget flags e.1
  if a then .ok true else vget flags e.2

/-- The loop of `ComputeMinEdgeLength`, `Mesh.cpp:576-583`. -/
def minOver (env : Env P) (m : Mesh P) (flags : List Bool) : List Edge → ℚ → Res ℚ
  | [], r => .ok r
  | e :: es, r => do
    let c ← atSelected flags e
    minOver env m flags es (if c then min r (lengthOf env m e) else r)

/-- `ComputeMinEdgeLength`, `Mesh.cpp:570-585`; `largest` is the largest floating-point number. -/
def minEdgeLength (env : Env P) (polygons : List (P → Bool)) (largest : ℚ) (m : Mesh P) : Res ℚ :=
  minOver env m (m.nodes.map (inFirst polygons)) m.edges largest

/-- `mkernel_mesh2d_merge_nodes`, `libs/MeshKernelApi/src/MeshKernel.cpp:2045-2052`. -/
def mergeNodesCall (env : Env P) (polygons : List (P → Bool)) (largest : ℚ) (m : Mesh P) : Res (Option (List (Act P)) × Mesh P) := do
  let l ← minEdgeLength env polygons largest m
  mergeNodes env polygons (max (1 / 1000000) (l * (1 / 10))) m

/-- `mkernel_mesh2d_merge_nodes_with_merging_distance`, `MeshKernel.cpp:2071-2075`. -/
def mergeNodesDistanceCall (env : Env P) (polygons : List (P → Bool)) (d : ℚ) (m : Mesh P) : Res (Option (List (Act P)) × Mesh P) :=
  mergeNodes env polygons d m

end Verif.MergeClose
