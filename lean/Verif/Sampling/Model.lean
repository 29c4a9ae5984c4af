import Verif.Averaging.Model
import Verif.Quality.Model
import Verif.Polygons.AreaModel
import Verif.Circular.Model
/-!
# Model: averaging interpolation on a mesh

Models `AveragingInterpolation` (`libs/MeshKernel/src/AveragingInterpolation.cpp`) with the search tree of the samples, the polygons around nodes and
faces, and the call of the interface, for the Cartesian projection in exact arithmetic.  The averages themselves are those of `Verif.Averaging`.
-/
namespace Verif.Sampling
open Verif.Mesh Verif.Faces
open Verif.Polygons (Pt)
open Verif.Averaging (Val)

/-- `Sample`: a point with a value. -/
structure Spot where
  pos : Pt
  value : ℚ
  deriving DecidableEq, Repr

/-- `AveragingInterpolation::Method`, `libs/MeshKernel/include/MeshKernel/AveragingInterpolation.hpp:79-87`. -/
inductive Method where
  | simple
  | closest
  | max
  | min
  | inverse
  | minAbs
  deriving DecidableEq, Repr

/-- The arguments of the constructor, `AveragingInterpolation.cpp:37-55`. -/
structure Settings where
  method : Method
  radius : ℚ
  useClosest : Bool
  transform : Bool
  minNum : Nat

/-- What the sources do not fix: the extreme doubles, the distance with its square root, the order in which the search tree reports what it
finds, and which of several equally near samples is the nearest one. -/
structure Env where
  lowest : ℚ
  top : ℚ
  dist : Pt → Pt → ℚ
  order : List Nat → List Nat
  nearest : List Spot → Pt → Nat

/-- `ComputeSquaredDistance`, `libs/MeshKernel/src/Operations.cpp:879-911`, Cartesian. -/
def squared (a b : Pt) : ℚ :=
  if !a.isValid || !b.isValid then 0 else (b.x - a.x) * (b.x - a.x) + (b.y - a.y) * (b.y - a.y)

/-- The strategy chosen by `AveragingStrategyFactory.cpp:41-57`, applied. -/
def calculate (env : Env) (st : Settings) (c : Pt) (ss : List Spot) : Val ℚ :=
  match st.method with
  | .simple => Averaging.simple st.minNum (ss.map (fun s => ⟨s.value, 0⟩))
  | .closest => .num (Averaging.closest env.top (ss.map (fun s => ⟨s.value, squared c s.pos⟩)))
  | .max => .num (Averaging.maximum env.lowest (ss.map (fun s => ⟨s.value, 0⟩)))
  | .min => .num (Averaging.minimum env.top (ss.map (fun s => ⟨s.value, 0⟩)))
  | .inverse => Averaging.inverseWeighted st.minNum (ss.map (fun s => ⟨s.value, env.dist c s.pos⟩))
  | .minAbs => .num (Averaging.minimumAbs env.top (ss.map (fun s => ⟨s.value, 0⟩)))

/-! ## The search tree -/

/-- The sample is put into the tree, `libs/MeshKernel/include/MeshKernel/Utilities/RTree.hpp:169-172`. -/
def inTree (s : Spot) : Bool := decide (s.pos.x ≠ -999) && decide (s.pos.y ≠ -999)

/-- The two conditions of the query, `RTree.hpp:214-225`: strictly within the box of half width `R` around `c`, and no further than `R`; `r2` is the
square of `R`. -/
def near (c : Pt) (r2 : ℚ) (p : Pt) : Bool :=
  decide ((p.x - c.x) * (p.x - c.x) < r2) && decide ((p.y - c.y) * (p.y - c.y) < r2) &&
    decide ((p.x - c.x) * (p.x - c.x) + (p.y - c.y) * (p.y - c.y) ≤ r2)

/-- Whether sample `i` is reported. -/
def hit (ss : List Spot) (c : Pt) (r2 : ℚ) (i : Nat) : Bool :=
  match ss[i]? with
  | some s => inTree s && near c r2 s.pos
  | none => false

/-- `RTree::SearchPoints`, `RTree.hpp:206-235`: the indices of the samples found.  An empty tree throws. -/
def searchPoints (env : Env) (ss : List Spot) (c : Pt) (r2 : ℚ) : Res (List Nat) :=
  if ss.any inTree then .ok (env.order ((List.range ss.length).filter (hit ss c r2))) else .throw

/-! ## One polygon -/

/-- `GetSearchPolygon`, `AveragingInterpolation.cpp:142-172`, Cartesian. -/
def searchPolygon (r : ℚ) (polygon : List Pt) (c : Pt) : List Pt :=
  polygon.map (fun p => (p.scale r).add (c.scale (1 - r)))

/-- `GetSearchRadiusSquared`, `AveragingInterpolation.cpp:174-186`; it starts at the lowest double. -/
def searchRadius (lowest : ℚ) (polygon : List Pt) (c : Pt) : ℚ :=
  polygon.foldl (fun r p => max r (squared c p)) lowest

/-- The samples with the given indices. -/
def gather (ss : List Spot) : List Nat → Res (List Spot)
  | [] => .ok []
  | i :: is => do
    let s ← vget ss i
    let l ← gather ss is
    .ok (s :: l)

/-- The samples that are averaged, `AveragingInterpolation.cpp:199-215`. -/
def chosen (polygon : List Pt) (ss : List Spot) : List Spot :=
  ss.filter (fun s => !decide (s.value ≤ -999) && Polygons.inPolygonNodes polygon s.pos)

/-- `ComputeInterpolationResultFromNeighbors`, `AveragingInterpolation.cpp:194-218`. -/
def fromNeighbours (env : Env) (st : Settings) (ss : List Spot) (found : List Nat) (polygon : List Pt) (c : Pt) : Res (Val ℚ) := do
  let l ← gather ss found
  .ok (calculate env st c (chosen polygon l))

/-- The nearest sample, `AveragingInterpolation.cpp:241-242`; the tree is not empty here. -/
def nearestValue (env : Env) (ss : List Spot) (c : Pt) : Res (Val ℚ × List Nat) := do
  let s ← vget ss (env.nearest ss c)
  .ok (.num s.value, [env.nearest ss c])

/-- The answer once the tree has been asked, `AveragingInterpolation.cpp:239-250`. -/
def answer (env : Env) (st : Settings) (ss : List Spot) (found : List Nat) (polygon : List Pt) (c : Pt) : Res (Val ℚ × List Nat) :=
  if found.isEmpty then
    if st.useClosest then nearestValue env ss c else .ok (.num (-999), [])
  else do
    let v ← fromNeighbours env st ss found polygon c
    .ok (v, found)

/-- `ComputeOnPolygon`, `AveragingInterpolation.cpp:220-251`: the value, and the indices the tree holds afterwards. -/
def onPolygon (env : Env) (st : Settings) (ss : List Spot) (polygon : List Pt) (c : Pt) : Res (Val ℚ × List Nat) :=
  if !c.isValid then .throw
  else
    let search := searchPolygon st.radius polygon c
    let r2 := searchRadius env.lowest search c
    if r2 ≤ 0 then .throw
    else do
      let found ← searchPoints env ss c r2
      answer env st ss found search c

/-! ## Faces -/

/-- `Mesh::Node`, `libs/MeshKernel/include/MeshKernel/Mesh.hpp:531-539`: throws outside the range. -/
def nodeAt (nodes : List (Option Pt)) (i : Nat) : Res Pt :=
  match nodes[i]? with
  | some p => .ok (Quality.stored p)
  | none => .throw

/-- The corners of a face moved away from the centre of mass, `AveragingInterpolation.cpp:117-120`. -/
def enlarged (r : ℚ) (c : Pt) (nodes : List (Option Pt)) : List Nat → Res (List Pt)
  | [] => .ok []
  | i :: is => do
    let p ← nodeAt nodes i
    let l ← enlarged r c nodes is
    .ok (c.add (((⟨p.x - c.x, p.y - c.y⟩ : Pt)).scale r) :: l)

/-- The closed polygon of a face, `AveragingInterpolation.cpp:115-121`; a face without nodes would have no first one. -/
def facePolygon (r : ℚ) (c : Pt) (nodes : List (Option Pt)) (ns : List Nat) : Res (List Pt) := do
  let l ← enlarged r c nodes ns
  let first ← vget l 0
  .ok (l ++ [first])

/-- The result is above zero; a comparison with NaN fails. -/
def positive : Val ℚ → Bool
  | .num v => decide (v > 0)
  | .nan => false

/-- Lower the samples found, `AveragingInterpolation.cpp:129-136`. -/
def lower : List Nat → List Spot → List Bool → Res (List Spot × List Bool)
  | [], ss, visited => .ok (ss, visited)
  | i :: is, ss, visited => do
    let seen ← vget visited i
    if seen then lower is ss visited
    else do
      let visited' ← vset visited i true
      let s ← vget ss i
      let ss' ← vset ss i ⟨s.pos, s.value - 1⟩
      lower is ss' visited'

/-- The samples after a face, `AveragingInterpolation.cpp:125-137`. -/
def after (st : Settings) (v : Val ℚ) (found : List Nat) (ss : List Spot) (visited : List Bool) : Res (List Spot × List Bool) :=
  if st.transform && positive v then lower found ss visited else .ok (ss, visited)

/-- The loop over the faces, `AveragingInterpolation.cpp:113-138`, over the nodes and centres of mass of the faces that remain: the results, and the
samples at the end. -/
def facesLoop (env : Env) (st : Settings) (nodes : List (Option Pt)) :
    List (List Nat × Pt) → List Spot → List Bool → Res (List (Val ℚ) × List Spot)
  | [], ss, _ => .ok ([], ss)
  | (ns, c) :: fs, ss, visited => do
    let polygon ← facePolygon st.radius c nodes ns
    let a ← onPolygon env st ss polygon c
    let b ← after st a.1 a.2 ss visited
    let rest ← facesLoop env st nodes fs b.1 b.2
    .ok (a.1 :: rest.1, rest.2)

/-- `Compute` for faces, `AveragingInterpolation.cpp:57-67, 106-139`: the results and the samples at the end, which belong to the caller. -/
def onFaces (env : Env) (st : Settings) (nodes : List (Option Pt)) (fs : List (List Nat × Pt)) (ss : List Spot) : Res (List (Val ℚ) × List Spot) :=
  if ss.isEmpty then .throw else facesLoop env st nodes fs ss (List.replicate ss.length false)

/-! ## Nodes and edges -/

/-- The tables the dual faces are made of. -/
structure Around where
  nodes : List (Option Pt)
  edges : List Edge
  nodesEdges : List (List Nat)
  numEdges : List Nat
  numFaces : List Nat
  edgesFaces : List (Nat × Nat)
  facesEdges : List (List Nat)
  masses : List Pt

/-- The tables of an administrated mesh. -/
def around (m : Mesh Pt) (s : State) : Around where
  nodes := m.nodes
  edges := m.edges
  nodesEdges := m.nodesEdges
  numEdges := m.numEdges
  numFaces := s.numFaces
  edgesFaces := s.edgesFaces
  facesEdges := s.facesEdges
  masses := s.facesNodes.map (fun ns => (Quality.areaAndMass m.nodes ns).2)

/-- Place of the edge in the face, 0 if it is not there, `libs/MeshKernel/src/Mesh2D.cpp:1482-1490`. -/
def placeIn (es : List Nat) (e : Nat) : Nat := if es.idxOf e < es.length then es.idxOf e else 0

/-- The face between two consecutive edges of a node, `Mesh2D.cpp:1471-1502`. -/
def faceBetween (t : Around) (first second : Nat) (count : Nat) : Res Nat := do
  let fs ← vget t.edgesFaces first
  let es ← vget t.facesEdges fs.1
  let j ← Circular.nextBackward (placeIn es first) es.length
  let e ← vget es j
  .ok (if e = second then fs.1 else if count > 1 then fs.2 else missing)

/-- The loop of `SortedFacesAroundNode`, `Mesh2D.cpp:1461-1503`, from place `e` on: edges without faces are left out. -/
def sortedLoop (t : Around) (es : List Nat) (total : Nat) : Nat → Nat → Res (List Nat)
  | 0, _ => .ok []
  | k + 1, e => do
    let first ← vget es e
    let count ← vget t.numFaces first
    if count = 0 then sortedLoop t es total k (e + 1)
    else do
      let ee ← Circular.nextForward e total
      let second ← vget es ee
      let f ← faceBetween t first second count
      let l ← sortedLoop t es total k (e + 1)
      .ok (f :: l)

/-- `SortedFacesAroundNode`, `Mesh2D.cpp:1457-1506`. -/
def sortedFaces (t : Around) (n : Nat) : Res (List Nat) := do
  let k ← vget t.numEdges n
  let es ← vget t.nodesEdges n
  sortedLoop t es k k 0

/-- `m_edgesCenters[e]`, `libs/MeshKernel/src/Operations.cpp:1474-1494`. -/
def edgeCentre (t : Around) (e : Nat) : Res Pt := do
  let p ← vget t.edges e
  if p.1 = missing ∨ p.2 = missing then .ok ⟨-999, -999⟩
  else do
    let a ← vget t.nodes p.1
    let b ← vget t.nodes p.2
    .ok (((Quality.stored a).add (Quality.stored b)).scale (1 / 2))

/-- The centre next to an edge in `MakeDualFace`, `Mesh2D.cpp:1424-1432`: the node itself where there is no face. -/
def centreAt (t : Around) (n f : Nat) : Res Pt :=
  if f = missing then (vget t.nodes n) >>= (fun p => .ok (Quality.stored p)) else vget t.masses f

/-- The loop of `MakeDualFace`, `Mesh2D.cpp:1398-1433`, from place `e` on, Cartesian. -/
def dualLoop (t : Around) (n : Nat) (es fs : List Nat) : Nat → Nat → Res (List Pt)
  | 0, _ => .ok []
  | k + 1, e => do
    let edge ← vget es e
    let c ← edgeCentre t edge
    let f ← vget fs e
    let q ← centreAt t n f
    let l ← dualLoop t n es fs k (e + 1)
    .ok (c :: q :: l)

/-- `MakeDualFace`, `Mesh2D.cpp:1391-1455`, Cartesian. -/
def dualFace (t : Around) (factor : ℚ) (n : Nat) : Res (List Pt) := do
  let fs ← sortedFaces t n
  let k ← vget t.numEdges n
  let es ← vget t.nodesEdges n
  let l ← dualLoop t n es fs k 0
  let first ← vget l 0
  let r ← Polygons.faceArea (l ++ [first])
  let c := r.2.1
  .ok ((l ++ [first]).map (fun v => c.add (((⟨v.x - c.x, v.y - c.y⟩ : Pt)).scale factor)))

/-- One round of the loop over the nodes, `AveragingInterpolation.cpp:80-82`. -/
def atNode (env : Env) (st : Settings) (t : Around) (ss : List Spot) (n : Nat) : Res (Val ℚ) := do
  let polygon ← dualFace t st.radius n
  let p ← nodeAt t.nodes n
  let a ← onPolygon env st ss polygon p
  .ok a.1

/-- `Compute` for nodes, `AveragingInterpolation.cpp:57-84`. -/
def onNodes (env : Env) (st : Settings) (t : Around) (ss : List Spot) : Res (List (Val ℚ)) :=
  if ss.isEmpty then .throw else Quality.fill (atNode env st t ss) t.nodes.length 0

/-- The mean of two results, `AveragingInterpolation.cpp:99-102`: missing if one of them is.  `IsEqual` is taken for equality. -/
def meanOf (a b : Val ℚ) : Val ℚ :=
  match a, b with
  | .num u, .num v => if u ≠ -999 ∧ v ≠ -999 then .num (1 / 2 * (u + v)) else .num (-999)
  | .nan, .num v => if v ≠ -999 then .nan else .num (-999)
  | .num u, .nan => if u ≠ -999 then .nan else .num (-999)
  | .nan, .nan => .nan

/-- One round of the loop over the edges, `AveragingInterpolation.cpp:94-102`. -/
def atEdge (edges : List Edge) (vs : List (Val ℚ)) (e : Nat) : Res (Val ℚ) := do
  let p ← vget edges e
  let a ← vget vs p.1
  let b ← vget vs p.2
  .ok (meanOf a b)

/-- `Compute` for edges, `AveragingInterpolation.cpp:57-104`. -/
def onEdges (env : Env) (st : Settings) (t : Around) (ss : List Spot) : Res (List (Val ℚ)) := do
  let vs ← onNodes env st t ss
  Quality.fill (atEdge t.edges vs) t.edges.length 0

/-! ## The call of the interface -/

/-- `Location`, the three that the call knows. -/
inductive Place where
  | faces
  | nodes
  | edges
  deriving DecidableEq, Repr

/-- The results for the place asked for, `libs/MeshKernelApi/src/MeshKernel.cpp:5157-5172`. -/
def resultsAt (env : Env) (st : Settings) (place : Place) (m : Mesh Pt) (s : State) (ss : List Spot) : Res (List (Val ℚ)) :=
  match place with
  | .faces => do
    let r ← onFaces env st m.nodes (s.facesNodes.zip (around m s).masses) ss
    .ok r.1
  | .nodes => onNodes env st (around m s) ss
  | .edges => onEdges env st (around m s) ss

/-- `mkernel_mesh2d_averaging_interpolation`, `MeshKernel.cpp:5123-5182`, with `ConvertGeometryListToSampleVector`,
`libs/MeshKernelApi/include/MeshKernelApi/Utils.hpp:165-179`, and `ConvertSampleVectorToGeometryList`, `Utils.hpp:202-220`: the values written,
`room` of them.  The locations are as many as the values. -/
def apiAveraging (env : Env) (method : Method) (radius : ℚ) (minNum : Nat) (place : Place) (room : Nat) (m : Mesh Pt) (s : State) (ss : List Spot) :
    Res (List (Val ℚ)) :=
  if m.nodes.isEmpty then .throw
  else if ss.isEmpty then .throw
  else do
    let vs ← resultsAt env ⟨method, radius, false, false, minNum⟩ place m s ss
    if vs.length < room then .throw else .ok (vs.take room)

/-- Whether the refinement by levels refines face `f`, `libs/MeshKernel/src/MeshRefinement.cpp:924-927`, given the results. -/
def refines (vs : List (Val ℚ)) (f : Nat) : Bool :=
  match vs[f]? with
  | some (.num v) => !decide (v ≤ 0)
  | _ => true

end Verif.Sampling
