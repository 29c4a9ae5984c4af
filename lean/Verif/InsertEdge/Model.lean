import Verif.Cache.Model
import Mathlib.Algebra.Order.Field.Basic
/-!
# Model: inserting an edge between two points

Models `mkernel_mesh2d_insert_edge_from_coordinates` (`MeshKernel.cpp:2197-2266`) with `Mesh::FindNodeCloseToAPoint`
(`Mesh.cpp:653-671`).

The search trees are those of `Verif.Cache`.  The distance of two points is a parameter with values in an ordered field,
and so is the search for the nearest point within a distance (`RTree.hpp:238-262`).  `whole` is the default box of
`BuildTree`, `lengths` the vector `m_edgeLengths`, as the last call that computed it has left it.
-/
namespace Verif.InsertEdge
open Verif.Mesh Verif.Cache
variable {P B K : Type} [Field K] [LinearOrder K]

/-- `minMeshEdgeLength`, `MeshKernel.cpp:2222`; `n` is the length of the new edge. -/
def minLength (n : K) : List K → K
  | [] => n
  | l :: ls => ls.foldl min l

/-- `searchRadius`, `MeshKernel.cpp:2218-2223`. -/
def radius (dist : P → P → K) (lengths : List K) (p q : P) : K :=
  min (dist p q * (1 / 100)) (minLength (dist p q) lengths * (1 / 100))

/-- `FindNodeCloseToAPoint`, `Mesh.cpp:653-671`; the search throws when the tree is empty, `RTree.hpp:239-242`. -/
def nearNode (g : Geo P B) (whole : B) (close : List (P × Nat) → P → K → Option Nat) (s : Cached P B) (p : P) (r : K) :
    Res (Nat × Cached P B) :=
  if s.mesh.nodes.isEmpty then .ok (missing, s)
  else do
    let s1 ← buildTree g s .nodes whole
    if s1.nodesTree.isEmpty then .throw
    else .ok ((close s1.nodesTree p r).getD missing, s1)

/-- `InsertNode`, `Mesh.cpp:468-480`, with the flag set by `CommitAction`, `Mesh.cpp:1190-1195`. -/
def withNode (s : Cached P B) (p : P) : Cached P B :=
  { s with mesh := (insertNode s.mesh (some p)).2, nodesDirty := true }

/-- The first end, `MeshKernel.cpp:2232-2240`: its index, the undo actions and the new state. -/
def firstEnd (g : Geo P B) (whole : B) (close : List (P × Nat) → P → K → Option Nat) (s : Cached P B) (p : P) (r : K) :
    Res (Nat × List (Act P) × Cached P B) := do
  let f ← nearNode g whole close s p r
  if f.1 = missing then do
    let s2 ← buildTree g (withNode f.2 p) .nodes whole
    .ok (f.2.mesh.nodes.length, [.addNode f.2.mesh.nodes.length (some p)], s2)
  else .ok (f.1, [], f.2)

/-- The second end, `MeshKernel.cpp:2242-2249`. -/
def secondEnd (g : Geo P B) (whole : B) (close : List (P × Nat) → P → K → Option Nat) (s : Cached P B) (p : P) (r : K) :
    Res (Nat × List (Act P) × Cached P B) := do
  let f ← nearNode g whole close s p r
  if f.1 = missing then
    .ok (f.2.mesh.nodes.length, [.addNode f.2.mesh.nodes.length (some p)], withNode f.2 p)
  else .ok (f.1, [], f.2)

/-- `ConnectNodes`, `Mesh.cpp:482-496`, with its undo action and the flag set by `CommitAction`, `Mesh.cpp:1197-1201`. -/
def connect (s : Cached P B) (a b : Nat) : Res (Nat × List (Act P) × Cached P B) := do
  let c ← connectNodes s.mesh a b
  if c.1 = missing then .ok (missing, [], s)
  else .ok (c.1, [.addEdge c.1 (a, b)], { s with mesh := c.2, edgesDirty := true })

/-- What the call returns: the three indices, what is put on the undo stack and the new state. -/
structure Out (P B : Type) where
  first : Nat
  second : Nat
  edge : Nat
  recorded : Option (List (Act P))
  state : Cached P B

/-- `mkernel_mesh2d_insert_edge_from_coordinates`, `MeshKernel.cpp:2197-2266`. -/
def insertEdge (g : Geo P B) (whole : B) (close : List (P × Nat) → P → K → Option Nat) (dist : P → P → K) (lengths : List K)
    (s : Cached P B) (p q : P) : Res (Out P B) :=
  if radius dist lengths p q ≤ 0 then .throw
  else do
    let s0 ← buildTree g s .nodes whole
    let a ← firstEnd g whole close s0 p (radius dist lengths p q)
    let b ← secondEnd g whole close a.2.2 q (radius dist lengths p q)
    let s3 ← buildTree g b.2.2 .edges whole
    let c ← connect s3 a.1 b.1
    .ok ⟨a.1, b.1, c.1, if c.1 = missing then none else some (a.2.1 ++ b.2.1 ++ c.2.1), c.2.2⟩

/-- One round of `ComputeEdgesLengths`, `Mesh.cpp:558-567`: the length of a deleted edge is what was there before, and
`-999` in an entry that is new. -/
def lengthOf (dist : Option P → Option P → K) (nodes : List (Option P)) (old : Option K) (e : Edge) : Res K :=
  if e.1 ≠ missing ∧ e.2 ≠ missing then do
    let a ← vget nodes e.1
    let b ← vget nodes e.2
    .ok (dist a b)
  else .ok (old.getD (-999))

/-- `ComputeEdgesLengths`, `Mesh.cpp:552-568`, over the edges from number `k` on. -/
def computeLengths (dist : Option P → Option P → K) (nodes : List (Option P)) (old : List K) : Nat → List Edge → Res (List K)
  | _, [] => .ok []
  | k, e :: es => do
    let l ← lengthOf dist nodes old[k]? e
    let ls ← computeLengths dist nodes old (k + 1) es
    .ok (l :: ls)

end Verif.InsertEdge
