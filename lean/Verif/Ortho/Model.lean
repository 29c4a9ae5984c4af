import Verif.Ortho.TypesModel
import Mathlib.Algebra.Order.Field.Basic
/-!
# Model: orthogonalization and smoothing of a mesh

Models `libs/MeshKernel/src/OrthogonalizationAndSmoothing.cpp` for the Cartesian and the spherical projection, without land
boundaries (`SnapMeshToLandBoundaries` then does nothing, `LandBoundaries.cpp:978-981`).  The weights computed by `Orthogonalizer::Compute` and
`Smoother::Compute` are arbitrary.  Arithmetic is exact.  The parallel loops run over the nodes in an arbitrary order `sched`.
`Mesh::Node(i)` throws for an index out of range; as an exception must not leave a parallel loop, this is undefined here.
-/
namespace Verif.Ortho
open Verif.Mesh
variable {K : Type} [Field K] [LinearOrder K]

structure Pt (K : Type) where
  x : K
  y : K
deriving DecidableEq, Repr

/-- `Point::IsValid`, `Point.hpp:116-122`; the comparison with -999 is exact here. -/
def Pt.valid (p : Pt K) : Bool := !(decide (p.x = -999) || decide (p.y = -999))

/-- `Point()`: both coordinates are missing. -/
def Pt.missing : Pt K := ⟨-999, -999⟩

/-- What `OrthogonalizationAndSmoothing` reads of the mesh and does not change: `m_edges`, `m_nodesEdges`, `m_edgesNumFaces`, `m_nodesTypes`. -/
structure Net where
  edges : List Edge
  adj : List (List Nat)
  numFaces : List Nat
  types : List Int
deriving DecidableEq, Repr

/-- What is read of the smoother (`m_weights`, `m_connectedNodes`, `m_numConnectedNodes`, `Smoother.hpp:54-75`) and of the orthogonalizer (`m_weights`,
`m_rhs`, `Orthogonalizer.hpp:55-67`). -/
structure Weights (K : Type) where
  smooth : List (List K)
  connected : List (List Nat)
  numConnected : List Nat
  orth : List (List K)
  rhs : List (K × K)

/-- `orthogonalization_to_smoothing_factor`, `orthogonalization_to_smoothing_factor_at_boundary`. -/
structure Factors (K : Type) where
  inside : K
  boundary : K

/-- The compressed system: `m_compressedEndNodeIndex`, `m_compressedStartNodeIndex` (the first and the last entry of each node plus one, in
spite of the names), `m_compressedNodesNodes`, `m_compressedWeightX` (`m_compressedWeightY` holds the same values) and
`m_compressedRhs`. -/
structure System (K : Type) where
  first : List Nat
  last : List Nat
  nodes : List Nat
  weight : List K
  rhs : List K

/-- `std::max(m_nodesNumEdges[n] + 1, GetNumConnectedNodes(n))`, `OrthogonalizationAndSmoothing.cpp:169`. -/
def rowSize (net : Net) (w : Weights K) (n : Nat) : Res Nat := do
  let l ← vget net.adj n
  let c ← vget w.numConnected n
  .ok (max (l.length + 1) c)

/-- The loop `OrthogonalizationAndSmoothing.cpp:166-171`: first and last entries of the nodes, and `nodeCacheSize`. -/
def rowBounds (net : Net) (w : Weights K) (numNodes : Nat) : Res (List Nat × List Nat × Nat) :=
  forRange 0 numNodes (fun n s => do
    let c ← rowSize net w n
    .ok (s.1 ++ [s.2.2], s.2.1 ++ [s.2.2 + c], s.2.2 + c)) ([], [], 0)

/-- `AllocateLinearSystem`, `OrthogonalizationAndSmoothing.cpp:152-179`. -/
def allocate (net : Net) (w : Weights K) (numNodes : Nat) : Res (System K) := do
  let b ← rowBounds net w numNodes
  .ok ⟨b.1, b.2.1, List.replicate b.2.2 0, List.replicate b.2.2 0, List.replicate (numNodes * 2) 0⟩

/-- `m_nodesNodes[n][i]`, set in `ComputeNodeNeighbours`, `Mesh2D.cpp:1151-1158`. -/
def neighbour (net : Net) (n i : Nat) : Res Nat := do
  let l ← vget net.adj n
  let e ← vget l i
  let p ← vget net.edges e
  .ok (otherNode p n)

/-- Element of a vector of vectors. -/
def vget2 {α : Type} (l : List (List α)) (i j : Nat) : Res α := do
  let r ← vget l i
  vget r j

/-- Write an entry of the system, `OrthogonalizationAndSmoothing.cpp:222-231`. -/
def store (i k : Nat) (ww : K) (s : System K) : Res (System K) := do
  let ns ← vset s.nodes i k
  let ws ← vset s.weight i ww
  .ok { s with nodes := ns, weight := ws }

/-- The contribution of the smoother, `OrthogonalizationAndSmoothing.cpp:207-215`. -/
def smoothTerm (w : Weights K) (a : K) (t : Int) (n nn : Nat) : Res K :=
  if 1 - a > 0 ∧ t = 1 then do
    let x ← vget2 w.smooth n nn
    .ok ((1 - a) * x)
  else .ok 0

/-- One round of the loop `OrthogonalizationAndSmoothing.cpp:205-232`; `d` is `m_nodesNumEdges[n]`, `o` the first entry of the node. -/
def termEntry (net : Net) (w : Weights K) (a : K) (t : Int) (n d o nn : Nat) (s : System K) : Res (System K) := do
  let ww ← smoothTerm w a t n nn
  if nn < d + 1 then do
    let x ← vget2 w.orth n (nn - 1)
    let k ← neighbour net n (nn - 1)
    store (o + (nn - 1)) k (ww + a * x) s
  else do
    let k ← vget2 w.connected n nn
    store (o + (nn - 1)) k ww s

/-- `OrthogonalizationAndSmoothing.cpp:199`. -/
def localFactor (f : Factors K) (t : Int) : K := if t = 2 then max f.boundary f.inside else f.inside

/-- The node may move, `OrthogonalizationAndSmoothing.cpp:194`. -/
def movable (t : Int) (d : Nat) : Bool := (t == 1 || t == 2) && decide (2 ≤ d)

/-- One round of the loop `OrthogonalizationAndSmoothing.cpp:192-236`. -/
def termsOfNode (net : Net) (f : Factors K) (w : Weights K) (n : Nat) (s : System K) : Res (System K) := do
  let t ← vget net.types n
  let l ← vget net.adj n
  if !movable t l.length then .ok s
  else do
    let o ← vget s.first n
    let e ← vget s.last n
    let s1 ← forRange 1 (e - o) (termEntry net w (localFactor f t) t n l.length o) s
    let r ← vget w.rhs n
    let r1 ← vset s1.rhs (n * 2) (localFactor f t * r.1)
    let r2 ← vset r1 (n * 2 + 1) (localFactor f t * r.2)
    .ok { s1 with rhs := r2 }

/-- A loop over the nodes in the given order. -/
def overNodes {σ : Type} (f : Nat → σ → Res σ) : List Nat → σ → Res σ
  | [], s => .ok s
  | n :: l, s => do
    let s1 ← f n s
    overNodes f l s1

/-- `PrepareOuterIteration`, `OrthogonalizationAndSmoothing.cpp:137-150, 187-237`, once the weights are computed. -/
def prepare (sched : List Nat) (net : Net) (f : Factors K) (w : Weights K) (numNodes : Nat) : Res (System K) := do
  let s ← allocate net w numNodes
  overNodes (termsOfNode net f w) sched s

/-- What depends on the projection: the factors of the weights in `ComputeLocalIncrements` (`OrthogonalizationAndSmoothing.cpp:421-441`), given the node
and its neighbour, and `GetDx`, `GetDy` (`Operations.cpp:373-427`). -/
structure Metric (K : Type) where
  factor : Pt K → Pt K → K × K
  dx : Pt K → Pt K → K
  dy : Pt K → Pt K → K

/-- The Cartesian projection. -/
def cartesian : Metric K := ⟨fun _ _ => (1, 1), fun p q => q.x - p.x, fun p q => q.y - p.y⟩

/-- `IsPointOnPole`, `Operations.cpp:146-149` (`absLatitudeAtPoles` is 0.0001, `Constants.hpp:82`). -/
def onPole (p : Pt K) : Bool := decide (max (max p.y (-p.y) - 90) (90 - max p.y (-p.y)) < 1 / 10000)

/-- `firstPointX` in `GetDx`, `Operations.cpp:389-398`. -/
def wrapped (p q : Pt K) : K := if p.x - q.x > 180 then p.x - 360 else if p.x - q.x < -180 then p.x + 360 else p.x

/-- The spherical projection: `OrthogonalizationAndSmoothing.cpp:431-441`, `Operations.cpp:381-407, 419-425`.  `cos` is the cosine of an angle in degrees,
`scale` the product of the radius of the earth and the number of radians per degree. -/
def spherical (cos : K → K) (scale : K) : Metric K where
  factor p q := (scale * cos ((p.y + q.y) / 2), scale)
  dx p q := if onPole p != onPole q then 0 else scale * cos ((p.y + q.y) / 2) * (q.x - wrapped p q)
  dy p q := scale * (q.y - p.y)

/-- `dx0`, `dy0` and `weightsSum` in `ComputeLocalIncrements`. -/
structure Sums (K : Type) where
  dx : K
  dy : K
  wx : K
  wy : K

/-- One round of the loop `OrthogonalizationAndSmoothing.cpp:414-452`. -/
def addTerm (M : Metric K) (s : System K) (nodes : List (Pt K)) (n o nn : Nat) (a : Sums K) : Res (Sums K) := do
  let ww ← vget s.weight (o + (nn - 1))
  let k ← vget s.nodes (o + (nn - 1))
  let q ← vget nodes k
  let p ← vget nodes n
  .ok ⟨a.dx + ww * (M.factor p q).1 * (q.x - p.x), a.dy + ww * (M.factor p q).2 * (q.y - p.y),
    a.wx + ww * (M.factor p q).1, a.wy + ww * (M.factor p q).2⟩

/-- `ComputeLocalIncrements`, `OrthogonalizationAndSmoothing.cpp:410-453`. -/
def increments (M : Metric K) (s : System K) (nodes : List (Pt K)) (n : Nat) : Res (Sums K) := do
  let o ← vget s.first n
  let e ← vget s.last n
  forRange 1 (e - o) (addTerm M s nodes n o) ⟨0, 0, 0, 0⟩

/-- `UpdateNodeCoordinates`, `OrthogonalizationAndSmoothing.cpp:359-408`; `coords` is `m_orthogonalCoordinates`. -/
def updateNode (M : Metric K) (s : System K) (nodes : List (Pt K)) (n : Nat) (coords : List (Pt K)) : Res (List (Pt K)) := do
  let a ← increments M s nodes n
  if a.wx ≤ 1 / 100000000 ∨ a.wy ≤ 1 / 100000000 then .ok coords
  else do
    let rx ← vget s.rhs (n * 2)
    let ry ← vget s.rhs (n * 2 + 1)
    let p ← vget nodes n
    vset coords n ⟨3 / 4 * (p.x + (a.dx + rx) / a.wx) + 1 / 4 * p.x, 3 / 4 * (p.y + (a.dy + ry) / a.wy) + 1 / 4 * p.y⟩

/-- `ComputeSquaredDistance`, `Operations.cpp:879-911`. -/
def squaredDistance (M : Metric K) (p q : Pt K) : K :=
  if !p.valid || !q.valid then 0 else M.dx p q * M.dx p q + M.dy p q * M.dy p q

/-- `DistanceFromLine`, `Operations.cpp:923-941`: the square of the distance and the nearest point; nothing (distance -999, missing point) for a line of length
zero. -/
def distanceFromLine (M : Metric K) (p a b : Pt K) : Option (K × Pt K) :=
  let sq := squaredDistance M b a
  if sq = 0 then none
  else
    let ratio := (M.dx a p * M.dx a b + M.dy a p * M.dy a b) / sq
    let r := max (min 1 ratio) 0
    let q : Pt K := ⟨a.x + r * (b.x - a.x), a.y + r * (b.y - a.y)⟩
    some (squaredDistance M p q, q)

/-- The comparison of distances `OrthogonalizationAndSmoothing.cpp:324`, by their squares; a missing distance is -999. -/
def nearer : Option (K × Pt K) → Option (K × Pt K) → Bool
  | none, none => false
  | none, some _ => true
  | some _, none => false
  | some a, some b => decide (a.1 < b.1)

/-- The nearest point, missing if there is none. -/
def nearestPoint : Option (K × Pt K) → Pt K
  | none => Pt.missing
  | some a => a.2

/-- The loop `OrthogonalizationAndSmoothing.cpp:284-309`: `secondPoint` and `thirdPoint` (original positions), from the boundary edges in the list; `count` is
`numNodes`. -/
def boundaryPoints (net : Net) (orig : List (Pt K)) (n : Nat) : List Nat → Nat → Pt K → Pt K → Res (Pt K × Pt K)
  | [], _, a, b => .ok (a, b)
  | e :: l, count, a, b => do
    let c ← vget net.numFaces e
    if c ≠ 1 then boundaryPoints net orig n l count a b
    else do
      let p ← vget net.edges e
      if count = 0 then do
        if otherNode p n = Verif.missing then .throw
        else do
          let q ← vget orig (otherNode p n)
          boundaryPoints net orig n l 1 q b
      else if count = 1 then do
        if otherNode p n = Verif.missing then .throw
        else do
          let q ← vget orig (otherNode p n)
          boundaryPoints net orig n l 2 a q
      else boundaryPoints net orig n l (count + 1) a b

/-- One round of the loop `OrthogonalizationAndSmoothing.cpp:267-346`.  `nearestPoints[n]` is changed only after its last use, so it is `n`. -/
def snapNode (M : Metric K) (net : Net) (orig : List (Pt K)) (n : Nat) (nodes : List (Pt K)) : Res (List (Pt K)) := do
  let t ← vget net.types n
  let l ← vget net.adj n
  if t ≠ 2 ∨ l = [] then .ok nodes
  else do
    let p ← vget nodes n
    if !p.valid then .ok nodes
    else do
      let r ← boundaryPoints net orig n l 0 Pt.missing Pt.missing
      if !r.1.valid || !r.2.valid then .ok nodes
      else do
        let o ← vget orig n
        let d2 := distanceFromLine M p o r.1
        let d3 := distanceFromLine M p o r.2
        vset nodes n (if nearer d2 d3 then nearestPoint d2 else nearestPoint d3)

/-- `m_mesh.m_nodes` and `m_orthogonalCoordinates`. -/
structure Positions (K : Type) where
  nodes : List (Pt K)
  coords : List (Pt K)

/-- `Solve`, `OrthogonalizationAndSmoothing.cpp:239-259`. -/
def solve (M : Metric K) (sched : List Nat) (net : Net) (orig : List (Pt K)) (s : System K) (z : Positions K) : Res (Positions K) := do
  let coords ← overNodes (updateNode M s z.nodes) sched z.coords
  let nodes ← forRange 0 coords.length (snapNode M net orig) coords
  .ok ⟨nodes, coords⟩

/-- The loop over the outer iterations, `OrthogonalizationAndSmoothing.cpp:120-134`, with the weights of each of them; `rounds` is the product of the
numbers of boundary and inner iterations. -/
def iterate (M : Metric K) (sched : List Nat) (net : Net) (f : Factors K) (orig : List (Pt K)) (rounds : Nat) :
    List (Weights K) → Positions K → Res (Positions K)
  | [], z => .ok z
  | w :: ws, z => do
    let s ← prepare sched net f w z.nodes.length
    let z1 ← forRange 0 rounds (fun _ => solve M sched net orig s) z
    iterate M sched net f orig rounds ws z1

/-- Flag the nodes outside the polygon, `OrthogonalizationAndSmoothing.cpp:70-81`; `inside` is the mask. -/
def flagOutside : List Bool → List Int → List Int
  | b :: bs, t :: ts => (if b then t else 3) :: flagOutside bs ts
  | _, ts => ts

/-- `nodeIndices`, `OrthogonalizationAndSmoothing.cpp:66-83`: the nodes saved for undo. -/
def insideNodes (inside : List Bool) : List Nat := (List.range inside.length).filter (fun n => inside.getD n false)

/-- The nodes at the given indices. -/
def pick {α : Type} (ns : List α) : List Nat → Res (List (Nat × α))
  | [] => .ok []
  | i :: is => do
    let p ← vget ns i
    let r ← pick ns is
    .ok ((i, p) :: r)

/-- `NodeTranslationAction::Create(mesh, nodeIndices)`, `NodeTranslationAction.cpp:21-49`: all nodes are saved when no
indices are given or when that takes less memory (4 bytes for an index, 16 for a point).  All nodes are saved with
their indices here; the class leaves them out. -/
def saved {α : Type} (ns : List α) (moved : List Nat) : Res (List (Nat × α)) :=
  if moved.length > ns.length then .throw
  else if moved = [] ∨ moved.length * 20 > ns.length * 16 then pick ns (List.range ns.length)
  else pick ns moved

/-- `NodeTranslationAction::Swap`, `NodeTranslationAction.cpp:64-74`, the loop. -/
def swapLoop {α : Type} : List (Nat × α) → List α → Res (List (Nat × α) × List α)
  | [], ns => .ok ([], ns)
  | (i, p) :: r, ns => do
    let q ← vget ns i
    let ns1 ← vset ns i p
    let rs ← swapLoop r ns1
    .ok ((i, q) :: rs.1, rs.2)

/-- `NodeTranslationAction::Swap`, `NodeTranslationAction.cpp:56-75`: undo and redo. -/
def swap {α : Type} (s : List (Nat × α)) (ns : List α) : Res (List (Nat × α) × List α) :=
  if ns.length < s.length then .throw else swapLoop s ns

/-- `Initialize` and `Compute`, `OrthogonalizationAndSmoothing.cpp:60-135`, after the administration of the mesh: the saved nodes and the new nodes. -/
def orthogonalize (M : Metric K) (sched : List Nat) (net : Net) (inside : List Bool) (f : Factors K) (rounds : Nat) (ws : List (Weights K)) (nodes : List (Pt K)) :
    Res (List (Nat × Pt K) × List (Pt K)) := do
  let u ← saved nodes (insideNodes inside)
  let z ← iterate M sched { net with types := flagOutside inside net.types } f nodes rounds ws ⟨nodes, nodes⟩
  .ok (u, z.nodes)

/-- All of it, once the mesh is administrated and its faces are found: `Administrate` ends with `ClassifyNodes` (`Mesh2D.cpp:153-168`).  The angle test of
`ClassifyNodes` is `sharp`. -/
def compute (M : Metric K) (sched : List Nat) (edges : List Edge) (adj : List (List Nat)) (numFaces : List Nat) (sharp : Nat → Nat → Nat → Bool)
    (inside : List Bool) (f : Factors K) (rounds : Nat) (ws : List (Weights K)) (nodes : List (Pt K)) : Res (List (Nat × Pt K) × List (Pt K)) := do
  let types ← classify edges adj numFaces sharp nodes.length
  orthogonalize M sched ⟨edges, adj, numFaces, types⟩ inside f rounds ws nodes

end Verif.Ortho
