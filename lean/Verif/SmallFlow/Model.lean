import Verif.Quality.Model
import Verif.Flip.Model
/-!
# Model: deleting small flow edges and small triangles

Models `DeleteDegeneratedTriangles`, `DeleteSmallFlowEdges` and `DeleteSmallTrianglesAtBoundaries` of `Mesh2D` for the Cartesian projection, with
the call of the interface.  Coordinates are rational numbers.  As in `Verif.Quality.Model`, `other` gives the centres of the faces that are no
triangles.
-/
namespace Verif.SmallFlow
open Verif.Mesh Verif.Faces
open Verif.Polygons (Pt)

/-! ## Degenerated triangles -/

/-- `den`, `Mesh2D.cpp:252-257`, Cartesian. -/
def den (p q r : Pt) : ℚ := (q.y - p.y) * (r.x - p.x) - (r.y - p.y) * (q.x - p.x)

/-- Is the face with the corners `ns` a triangle with collinear corners, `Mesh2D.cpp:233-259`.  The change of the corners near a pole is left out
(lines 242-249). -/
def flat (nodes : List (Option Pt)) (ns : List Nat) : Res Bool :=
  if ns.length ≠ 3 then .ok false
  else do
    let i ← vget ns 0
    let j ← vget ns 1
    let k ← vget ns 2
    let a ← vget nodes i
    let b ← vget nodes j
    let c ← vget nodes k
    .ok (Polygons.isEqual (den (Quality.stored a) (Quality.stored b) (Quality.stored c)) 0)

/-- The loop `Mesh2D.cpp:262-266`. -/
def removeSides (m : Mesh Pt) : List Nat → Res (List (Act Pt) × Mesh Pt)
  | [] => .ok ([], m)
  | e :: es => do
    let r ← resetEdgeU m e noEdge
    let rs ← removeSides r.2 es
    .ok (r.1 ++ rs.1, rs.2)

/-- One round of the loop `Mesh2D.cpp:231-270`; the result has `degeneratedTriangles` at its end. -/
def flatStep (s : State) (f : Nat) (st : List (Act Pt) × Mesh Pt × List Nat) : Res (List (Act Pt) × Mesh Pt × List Nat) := do
  let ns ← vget s.facesNodes f
  let b ← flat st.2.1.nodes ns
  if b then do
    let es ← vget s.facesEdges f
    let r ← removeSides st.2.1 (es.take 3)
    .ok (st.1 ++ r.1, r.2, st.2.2 ++ [f])
  else .ok st

/-- The loop `Mesh2D.cpp:273-282`. -/
def collapse (s : State) (masses : List Pt) : List Nat → Mesh Pt → Res (List (Act Pt) × Mesh Pt)
  | [], m => .ok ([], m)
  | f :: fs, m => do
    let ns ← vget s.facesNodes f
    let a ← vget ns 0
    let b ← vget ns 1
    let c ← vget ns 2
    let x ← vget masses f
    let r1 ← resetNodeU m c (some x)
    let r2 ← mergeTwoNodesU r1.2 b a
    let r3 ← mergeTwoNodesU r2.2 c a
    let rs ← collapse s masses fs r3.2
    .ok (r1.1 ++ r2.1 ++ r3.1 ++ rs.1, rs.2)

/-- `DeleteDegeneratedTriangles`, `Mesh2D.cpp:222-286`: the undo actions, the mesh and its faces. -/
def deleteDegenerated (m : Mesh Pt) : Res (List (Act Pt) × Mesh Pt × State) := do
  let r ← Flip.administrateAll m
  let st ← forRange 0 r.2.2.facesNodes.length (flatStep r.2.2) ([], r.2.1, [])
  let masses := r.2.2.facesNodes.map (fun ns => (Quality.areaAndMass r.2.1.nodes ns).2)
  let c ← collapse r.2.2 masses st.2.2 st.2.1
  let q ← Flip.administrateAll c.2
  .ok (r.1 ++ st.1 ++ c.1 ++ q.1, q.2)

/-! ## Small flow edges -/

/-- `DeleteSmallFlowEdges`, `Mesh2D.cpp:1005-1023`.  The administration at the start of `GetEdgesCrossingSmallFlowEdges` (line 969) leaves no
undo actions. -/
noncomputable def deleteSmallFlowEdges (other : List Pt → List Nat → Pt) (threshold : ℚ) (m : Mesh Pt) : Res (List (Act Pt) × Mesh Pt × State) := do
  let r ← deleteDegenerated m
  let a ← doAdministrationCartesian r.2.1
  let es ← Quality.smallFlowEdges (Quality.tables other a.1 a.2) threshold
  if es.isEmpty then .ok (r.1, a)
  else do
    let d ← deleteEdgesU a.1 es
    let q ← Flip.administrateAll d.2
    .ok (r.1 ++ d.1 ++ q.1, q.2)

/-! ## Small triangles at the boundary -/

/-- `IsEdgeOnBoundary`, `libs/MeshKernel/include/MeshKernel/Mesh.hpp:183`. -/
def onBoundary (s : State) (e : Nat) : Res Bool := do
  let c ← vget s.numFaces e
  .ok (c == 1)

/-- `IsFaceOnBoundary`, `Mesh.cpp:765-780`, for the edges of the face. -/
def anyOnBoundary (s : State) : List Nat → Res Bool
  | [] => .ok false
  | e :: es => do
    let b ← onBoundary s e
    if b then .ok true else anyOnBoundary s es

/-- `NextFace`, `Mesh2D.cpp:2142-2158`; `f` is the number of a face. -/
def nextFace (s : State) (f e : Nat) : Res Nat := do
  let p ← vget s.edgesFaces e
  .ok (if p.1 = f then p.2 else if p.2 = f then p.1 else missing)

/-- The loop `Mesh2D.cpp:1041-1055`: the areas of the faces next to face `f` with more than three corners, added up, and their number. -/
def neighbours (s : State) (areas : List ℚ) (f : Nat) : List Nat → ℚ × Nat → Res (ℚ × Nat)
  | [], r => .ok r
  | e :: es, r => do
    let b ← onBoundary s e
    if b then neighbours s areas f es r
    else do
      let g ← nextFace s f e
      let ns ← vget s.facesNodes g
      if ns.length > 3 then do
        let a ← vget areas g
        neighbours s areas f es (r.1 + a, r.2 + 1)
      else neighbours s areas f es r

/-- The square of `cosphi`, `Mesh2D.cpp:1078` with `libs/MeshKernel/src/Operations.cpp:1078-1099`, Cartesian, for the segments from `a` to `b` and from
`b` to `c`.  The squares are compared in place of the absolute values, which gives the same results; the missing value is -999.  The clamping of
line 1097 changes nothing for exact numbers. -/
def cosine2 (a b c : Pt) : ℚ :=
  let r1 := (b.x - a.x) * (b.x - a.x) + (b.y - a.y) * (b.y - a.y)
  let r2 := (c.x - b.x) * (c.x - b.x) + (c.y - b.y) * (c.y - b.y)
  if r1 ≤ 0 ∨ r2 ≤ 0 then 999 * 999
  else ((b.x - a.x) * (c.x - b.x) + (b.y - a.y) * (c.y - b.y)) * ((b.x - a.x) * (c.x - b.x) + (b.y - a.y) * (c.y - b.y)) / (r1 * r2)

/-- What the loop `Mesh2D.cpp:1068-1088` chooses: `minCosPhiSmallTriangle` squared, `nodeToPreserve`, `firstNodeToMerge`, `secondNodeToMerge` and
`thirdEdgeSmallTriangle`. -/
structure Corner where
  best : ℚ
  preserve : Nat
  first : Nat
  second : Nat
  third : Nat
deriving DecidableEq, Repr

/-- One round of the loop `Mesh2D.cpp:1068-1088`. -/
def cornerStep (nodes : List (Option Pt)) (ns es : List Nat) (e : Nat) (c : Corner) : Res Corner := do
  let prev := if e = 0 then 2 else e - 1
  let next := if e = 2 then 0 else e + 1
  let k0 ← vget ns prev
  let k1 ← vget ns e
  let k2 ← vget ns next
  let p0 ← vget nodes k0
  let p1 ← vget nodes k1
  let p2 ← vget nodes k2
  let t ← vget es next
  if cosine2 (Quality.stored p0) (Quality.stored p1) (Quality.stored p2) < c.best then
    .ok ⟨cosine2 (Quality.stored p0) (Quality.stored p1) (Quality.stored p2), k1, k0, k2, t⟩
  else .ok c

/-- The loop `Mesh2D.cpp:1063-1088`. -/
def chooseCorner (nodes : List (Option Pt)) (ns es : List Nat) : Res Corner :=
  forRange 0 3 (cornerStep nodes ns es) ⟨1, missing, missing, missing, missing⟩

/-- The test of lines `Mesh2D.cpp:1033` and `1039-1061`: is face `f` a triangle at the boundary that is small next to its neighbours. -/
def isSmall (s : State) (areas : List ℚ) (fraction : ℚ) (f : Nat) (ns es : List Nat) : Res Bool :=
  if ns.length ≠ 3 then .ok false
  else do
    let a ← vget areas f
    if a ≤ 0 then .ok false
    else do
      let b ← anyOnBoundary s es
      if !b then .ok false
      else do
        let r ← neighbours s areas f (es.take 3) (0, 0)
        if r.2 = 0 then .ok false
        else .ok (decide (¬ a / (r.1 / r.2) > fraction))

/-- One round of the loop `Mesh2D.cpp:1031-1094`. -/
def triangleStep (nodes : List (Option Pt)) (s : State) (areas : List ℚ) (fraction : ℚ) (f : Nat) (l : List (Nat × Nat × Nat)) :
    Res (List (Nat × Nat × Nat)) := do
  let ns ← vget s.facesNodes f
  let es ← vget s.facesEdges f
  let small ← isSmall s areas fraction f ns es
  if small then do
    let c ← chooseCorner nodes ns es
    if c.third = missing then .ok l
    else do
      let b ← onBoundary s c.third
      .ok (if b then l ++ [(c.preserve, c.first, c.second)] else l)
  else .ok l

/-- `smallTrianglesNodes`, `Mesh2D.cpp:1030-1094`. -/
def smallTriangles (m : Mesh Pt) (s : State) (fraction : ℚ) : Res (List (Nat × Nat × Nat)) :=
  forRange 0 s.facesNodes.length
    (triangleStep m.nodes s (s.facesNodes.map (fun ns => (Quality.areaAndMass m.nodes ns).1)) fraction) []

/-- One of the loops `Mesh2D.cpp:1105-1111` and `1121-1127` over edges of a node. -/
def countInternal (s : State) : List Nat → Nat → Res Nat
  | [], k => .ok k
  | e :: es, k => do
    let b ← onBoundary s e
    countInternal s es (if b then k else k + 1)

/-- Merge the end `n` of the side at the boundary if it has one internal edge, `Mesh2D.cpp:1104-1117` and `1120-1133`; `nodesMerged` is in the
state. -/
def mergeEnd (s : State) (keep n : Nat) (st : List (Act Pt) × Mesh Pt × Bool) : Res (List (Act Pt) × Mesh Pt × Bool) := do
  let l ← listedEdges st.2.1 n
  let k ← countInternal s l 0
  if k = 1 then do
    let r ← mergeTwoNodesU st.2.1 n keep
    .ok (st.1 ++ r.1, r.2, true)
  else .ok st

/-- The loop `Mesh2D.cpp:1097-1134`. -/
def mergeTriangles (s : State) : List (Nat × Nat × Nat) → List (Act Pt) × Mesh Pt × Bool → Res (List (Act Pt) × Mesh Pt × Bool)
  | [], st => .ok st
  | t :: ts, st => do
    let st1 ← mergeEnd s t.1 t.2.1 st
    let st2 ← mergeEnd s t.1 t.2.2 st1
    mergeTriangles s ts st2

/-- `DeleteSmallTrianglesAtBoundaries`, `Mesh2D.cpp:1025-1142`, for the mesh `m` with the faces `s`. -/
def deleteSmallTriangles (fraction : ℚ) (m : Mesh Pt) (s : State) : Res (List (Act Pt) × Mesh Pt) := do
  let ts ← smallTriangles m s fraction
  let st ← mergeTriangles s ts ([], m, false)
  if st.2.2 then do
    let q ← Flip.administrateAll st.2.1
    .ok (st.1 ++ q.1, q.2.1)
  else .ok (st.1, st.2.1)

/-! ## The interface -/

/-- `mkernel_mesh2d_delete_small_flow_edges_and_small_triangles`, `libs/MeshKernelApi/src/MeshKernel.cpp:3499-3519`: the actions become one step of
the undo history. -/
noncomputable def apiDelete (other : List Pt → List Nat → Pt) (threshold fraction : ℚ) (m : Mesh Pt) : Res (List (Act Pt) × Mesh Pt) := do
  let r ← deleteSmallFlowEdges other threshold m
  let t ← deleteSmallTriangles fraction r.2.1 r.2.2
  .ok (r.1 ++ t.1, t.2)

end Verif.SmallFlow
