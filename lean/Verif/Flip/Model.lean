import Verif.Faces.OrderModel
import Verif.Mesh.UndoModel
import Verif.Cross.SegmentModel
import Verif.Ortho.TypesModel
import Verif.Regions.Model
/-!
# Model: flipping of edges

Models `libs/MeshKernel/src/FlipEdges.cpp` for Cartesian meshes.  Left out: land boundaries (`FlipEdges.cpp:48-51`, `356-380`,
`391-512`); without them `m_projectToLandBoundary` has no effect.  `order es n l` is the rearrangement of the list of node `n` by
`SortEdgesInCounterClockWiseOrder` for the edges `es`.
-/
namespace Verif.Flip
open Verif.Mesh Verif.Faces
open Verif.Polygons (Pt)

/-- What `Compute` works on: the mesh, its faces, the undo actions so far, `numFlippedEdges`, and whether the function has returned at
`FlipEdges.cpp:100`. -/
structure St where
  mesh : Mesh Pt
  faces : State
  acts : List (Act Pt)
  flipped : Nat
  left : Bool

/-- `largeTopologyFunctionalValue`, `FlipEdges.cpp:281`. -/
def large : Int := 1000

/-- `OptimalNumberOfConnectedNodes`, `FlipEdges.cpp:514-527`, for a type of node. -/
def optimalOf (t : Int) : Int := if t = 3 then 3 else if t = 2 then 4 else 6

/-- `n1` and so on, `FlipEdges.cpp:351-354`. -/
def excess (m : Mesh Pt) (types : List Int) (n : Nat) : Res Int := do
  let k ← vget m.numEdges n
  let t ← vget types n
  .ok ((k : Int) - optimalOf t)

/-- The node of a triangle besides `a` and `b`: the sum of the indices less `a` and `b`, as 32 bit numbers, `FlipEdges.cpp:301-311`. -/
def apex (ns : List Nat) (a b : Nat) : Res Nat := do
  let x ← vget ns 0
  let y ← vget ns 1
  let z ← vget ns 2
  .ok ((x + y + z + 2 * 2 ^ 32 - a - b) % 2 ^ 32)

/-- `ComputeTopologyFunctional`, `FlipEdges.cpp:277-389`: the change of the functional, `nodeLeft` and `nodeRight`. -/
def functional (m : Mesh Pt) (s : State) (types : List Int) (e : Nat) : Res (Int × Nat × Nat) := do
  let c ← vget s.numFaces e
  if c = 1 then .ok (large, missing, missing)
  else do
    let p ← vget m.edges e
    let f ← vget s.edgesFaces e
    let nl ← vget s.facesNodes f.1
    let nr ← vget s.facesNodes f.2
    if nl.length ≠ 3 ∨ nr.length ≠ 3 then .ok (large, missing, missing)
    else do
      let l ← apex nl p.1 p.2
      let r ← apex nr p.1 p.2
      if l = missing ∨ r = missing then .ok (large, l, r)
      else if l ∉ nl then .ok (large, l, r)
      else if r ∉ nr then .ok (large, l, r)
      else do
        let n1 ← excess m types p.1
        let n2 ← excess m types p.2
        let nL ← excess m types l
        let nR ← excess m types r
        .ok ((n1 - 1) * (n1 - 1) + (n2 - 1) * (n2 - 1) + (nL + 1) * (nL + 1) + (nR + 1) * (nR + 1) -
          (n1 * n1 + n2 * n2 + nL * nL + nR * nR), l, r)

/-- One of the loops `FlipEdges.cpp:143-161` and `163-181`: the last edge of the face other than `e` that ends in `a`, and the last that ends
in `b`. -/
def others (edges : List Edge) (e a b : Nat) : List Nat → Nat × Nat → Res (Nat × Nat)
  | [], r => .ok r
  | x :: xs, r =>
    if x = e then others edges e a b xs r
    else
      match edges[x]? with
      | none => .throw
      | some p => others edges e a b xs (if p.1 = a ∨ p.2 = a then x else r.1, if p.1 = b ∨ p.2 = b then x else r.2)

/-- Replace face `f` of edge `x` by `g`, `FlipEdges.cpp:200-207` and `209-216`. -/
def replaceFace (ef : List (Nat × Nat)) (x f g : Nat) : Res (List (Nat × Nat)) := do
  let p ← vget ef x
  vset ef x (if p.1 = f then (g, p.2) else (p.1, g))

/-- The faces after the flip, `FlipEdges.cpp:138-216`; `fs` are the two faces of the edge.  The lists of a triangle have three entries, so they
are replaced as a whole. -/
def flipFaces (edges : List Edge) (s : State) (e a b l r : Nat) (fs : Nat × Nat) : Res State := do
  let el ← vget s.facesEdges fs.1
  let er ← vget s.facesEdges fs.2
  let ol ← others edges e a b el (missing, missing)
  let or ← others edges e a b er (missing, missing)
  let n1 ← vset s.facesNodes fs.1 [l, r, a]
  let e1 ← vset s.facesEdges fs.1 [e, or.1, ol.1]
  let n2 ← vset n1 fs.2 [l, r, b]
  let e2 ← vset e1 fs.2 [e, or.2, ol.2]
  let f1 ← replaceFace s.edgesFaces or.1 fs.2 fs.1
  let f2 ← replaceFace f1 ol.2 fs.1 fs.2
  .ok { s with facesNodes := n2, facesEdges := e2, edgesFaces := f2 }

/-- `DeleteEdgeFromNode`, `FlipEdges.cpp:251-275`; the number of edges is already one less. -/
def deleteEdgeFromNode (m : Mesh Pt) (e n : Nat) : Res (Mesh Pt) := do
  let l ← vget m.nodesEdges n
  let k ← vget m.numEdges n
  if l.length < k + 1 then .ub
  else if e ∈ l.take (k + 1) then do
    let ne ← vset m.nodesEdges n ((l.take (k + 1)).erase e)
    .ok { m with nodesEdges := ne }
  else .throw

/-- Append the edge to the list of node `n` and sort it, `FlipEdges.cpp:230-232` and `235-237`.  The sort writes to vectors of 16 entries,
`Mesh.cpp:785-787`. -/
def addEdgeToNode (order : List Edge → Nat → List Nat → List Nat) (m : Mesh Pt) (e n : Nat) : Res (Mesh Pt) := do
  let l ← vget m.nodesEdges n
  let k ← vget m.numEdges n
  let l1 := l.take (k - 1) ++ List.replicate (k - 1 - l.length) 0 ++ [e]
  if !validNode m.nodes n then do
    let ne ← vset m.nodesEdges n l1
    .ok { m with nodesEdges := ne }
  else if k > maxEdgesPerNode then .ub
  else do
    let ne ← vset m.nodesEdges n (order m.edges n l1)
    .ok { m with nodesEdges := ne }

/-- Change the number of edges of node `n`, one of `FlipEdges.cpp:218-221`. -/
def changeCount (m : Mesh Pt) (n : Nat) (f : Nat → Nat) : Res (Mesh Pt) := do
  let k ← vget m.numEdges n
  let nu ← vset m.numEdges n (f k)
  .ok { m with numEdges := nu }

/-- The lists of the nodes after the flip, `FlipEdges.cpp:218-237`. -/
def flipLists (order : List Edge → Nat → List Nat → List Nat) (m : Mesh Pt) (e a b l r : Nat) : Res (Mesh Pt) := do
  let m1 ← changeCount m a (· - 1)
  let m2 ← changeCount m1 b (· - 1)
  let m3 ← changeCount m2 l (· + 1)
  let m4 ← changeCount m3 r (· + 1)
  let m5 ← deleteEdgeFromNode m4 e a
  let m6 ← deleteEdgeFromNode m5 e b
  let m7 ← addEdgeToNode order m6 e l
  addEdgeToNode order m7 e r

/-- The flip itself, `FlipEdges.cpp:134-237`. -/
def flipEdge (order : List Edge → Nat → List Nat → List Nat) (e a b l r : Nat) (fs : Nat × Nat) (st : St) : Res St := do
  let u ← resetEdgeU st.mesh e (l, r)
  let s ← flipFaces u.2.edges st.faces e a b l r fs
  let m ← flipLists order u.2 e a b l r
  .ok { st with mesh := m, faces := s, acts := st.acts ++ u.1, flipped := st.flipped + 1 }

/-- `m_mesh.Node(n)`, `Mesh.hpp:531-539`. -/
def pointAt (nodes : List (Option Pt)) (n : Nat) : Res Pt := if n < nodes.length then .ok (position nodes n) else .throw

/-- `FlipEdges.cpp:112-238`, once the functional is known. -/
def flipIfCrossing (order : List Edge → Nat → List Nat → List Nat) (e l r : Nat) (fs : Nat × Nat) (st : St) : Res St := do
  let p ← vget st.mesh.edges e
  let xa ← pointAt st.mesh.nodes p.1
  let xb ← pointAt st.mesh.nodes p.2
  let xl ← pointAt st.mesh.nodes l
  let xr ← pointAt st.mesh.nodes r
  if Cross.crossing xa xb xl xr then flipEdge order e p.1 p.2 l r fs st else .ok st

/-- One round of the loop over the edges, `FlipEdges.cpp:78-238`. -/
def tryEdge (order : List Edge → Nat → List Nat → List Nat) (types : List Int) (e : Nat) (st : St) : Res St :=
  if st.left then .ok st
  else do
    let c ← vget st.faces.numFaces e
    if c = 1 then .ok st
    else do
      let fs ← vget st.faces.edgesFaces e
      if fs.1 = missing ∨ fs.2 = missing then .ok st
      else do
        let nl ← vget st.faces.facesNodes fs.1
        let nr ← vget st.faces.facesNodes fs.2
        if nl.length ≠ 3 ∨ nr.length ≠ 3 then .ok { st with left := true }
        else do
          let t ← functional st.mesh st.faces types e
          if t.1 ≥ 0 then .ok st else flipIfCrossing order e t.2.1 t.2.2 fs st

/-- The loop over the iterations, `FlipEdges.cpp:70-239`; the number of iterations left. -/
def rounds (order : List Edge → Nat → List Nat → List Nat) (types : List Int) (numEdges : Nat) : Nat → St → Res St
  | 0, st => .ok st
  | k + 1, st =>
    if st.flipped = 0 then .ok st
    else do
      let st1 ← forRange 0 numEdges (tryEdge order types) { st with flipped := 0 }
      if st1.left then .ok st1 else rounds order types numEdges k st1

/-- One face of `TriangulateFaces`, `Mesh2D.cpp:1376-1383`: the corners from the third to the last but one are joined with the first. -/
def fan (first : Nat) : List Nat → Mesh Pt → Res (List (Act Pt) × Mesh Pt)
  | [], m => .ok ([], m)
  | [_], m => .ok ([], m)
  | n :: n' :: ns, m => do
    let r ← connectNodesU m first n
    let rs ← fan first (n' :: ns) r.2
    .ok (r.1 ++ rs.1, rs.2)

/-- `TriangulateFaces`, `Mesh2D.cpp:1363-1389`. -/
def triangulateFaces : List (List Nat) → Mesh Pt → Res (List (Act Pt) × Mesh Pt)
  | [], m => .ok ([], m)
  | ns :: fs, m => do
    let r ← (if ns.length < 4 then .ok ([], m) else fan (ns.headD 0) (ns.drop 2) m)
    let rs ← triangulateFaces fs r.2
    .ok (r.1 ++ rs.1, rs.2)

/-- `Administrate` with the undo actions, `Mesh2D.cpp:153-168`, up to the search for the faces. -/
def administrateAll (m : Mesh Pt) : Res (List (Act Pt) × Mesh Pt × State) := do
  let m0 ← setUnconnectedInvalid m
  let r ← Regions.administrateU (ccwOrder m0.nodes m0.edges) m
  let s ← findFaces r.2.edges r.2.nodesEdges (clockwise r.2.nodes) (validNode r.2.nodes) r.2.nodes.length (initial r.2.edges.length)
  .ok (r.1, r.2, s)

/-- `FlipEdges.cpp:58-64`: the mesh the flipping starts from. -/
def prepare (triangulate : Bool) (m : Mesh Pt) : Res (List (Act Pt) × Mesh Pt × State) := do
  let r ← administrateAll m
  if !triangulate then .ok r
  else do
    let t ← triangulateFaces r.2.2.facesNodes r.2.1
    let r1 ← administrateAll t.2
    .ok (r.1 ++ t.1 ++ r1.1, r1.2)

/-- `FlipEdges.cpp:54-239`: up to the end of the loops.  The angle at a node, the last argument of `classify`, does not matter
(`Verif.Ortho.Props`). -/
def flipAll (triangulate : Bool) (m : Mesh Pt) : Res St := do
  let r ← prepare triangulate m
  let types ← Ortho.classify r.2.1.edges r.2.1.nodesEdges r.2.2.numFaces (fun _ _ _ => false) r.2.1.nodes.length
  rounds (ccwOrder r.2.1.nodes) types r.2.1.edges.length 10 ⟨r.2.1, r.2.2, r.1, missing, false⟩

/-- How `Compute` ends. -/
inductive Ending
  /-- with the undo actions and the mesh, and whether it returned at `FlipEdges.cpp:100` -/
  | done (acts : List (Act Pt)) (mesh : Mesh Pt) (left : Bool)
  /-- with the exception of `FlipEdges.cpp:243`, leaving the mesh as it is -/
  | failed (mesh : Mesh Pt)

/-- `Compute`, `FlipEdges.cpp:54-249`. -/
def compute (triangulate : Bool) (m : Mesh Pt) : Res Ending := do
  let st ← flipAll triangulate m
  if st.left then .ok (.done st.acts st.mesh true)
  else if st.flipped ≠ 0 then .ok (.failed st.mesh)
  else do
    let r ← administrateAll st.mesh
    .ok (.done (st.acts ++ r.1) r.2.1 false)

/-- `mkernel_mesh2d_flip_edges`, `MeshKernel.cpp:3285-3320`, without land boundaries: the selecting polygon goes to the land boundaries only (lines 3306-3307).
Only the change of the mesh is modelled. -/
def apiFlip (_polygon : List Pt) (triangulate : Bool) (m : Mesh Pt) : Res Ending := compute triangulate m

end Verif.Flip
