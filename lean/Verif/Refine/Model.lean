import Verif.Regions.Model
import Verif.Faces.Model
import Verif.Circular.Model
/-!
# Model: refinement of a mesh

Models `libs/MeshKernel/src/MeshRefinement.cpp` for meshes that are not spherical: the masks of edges and faces, the
splitting of edges and faces, the connection of hanging nodes and the loop over the levels. The point in the middle of an
edge (`mid`), the point at which a face is split (`centre`), the test that a node lies in the middle between two others
(`middle`) and the marks the samples give (`marks`) are parameters.
-/
namespace Verif.Refine
open Verif.Mesh Verif.Faces Verif.Circular
variable {P : Type}

/-- `Mesh::FindCommonNode`, `Mesh.cpp:592-614`. -/
def findCommonNode (edges : List Edge) (e f : Nat) : Res Nat := do
  let p ← vget edges e
  let q ← vget edges f
  if p.1 = missing ∨ p.2 = missing ∨ q.1 = missing ∨ q.2 = missing then .throw
  else if p.1 = q.1 ∨ p.1 = q.2 then .ok p.1
  else if p.2 = q.1 ∨ p.2 = q.2 then .ok p.2
  else .ok missing

/-- The common node, or an exception when there is none, `MeshRefinement.cpp:359-363, 367-371, 624-628`. -/
def commonNode (edges : List Edge) (e f : Nat) : Res Nat := do
  let n ← findCommonNode edges e f
  if n = missing then .throw else .ok n

/-! ## Brother edges: the halves of an edge with a hanging node -/

/-- The faces of an edge, the first one twice if there is only one, `MeshRefinement.cpp:1405-1408`. -/
def twoFaces (c : Nat) (p : Nat × Nat) : Nat × Nat := (p.1, if c = 1 then p.1 else p.2)

/-- `MeshRefinement.cpp:1410-1413`, negated. -/
def shareFace (p q : Nat × Nat) : Bool := p.1 == q.1 || p.1 == q.2 || p.2 == q.1 || p.2 == q.2

/-- `MeshRefinement.cpp:1418-1434`. -/
def joinBrothers (middle : Option P → Option P → Option P → Bool) (m : Mesh P) (n first second : Nat) (bro : List Nat) : Res (List Nat) := do
  let a ← vget m.edges first
  let b ← vget m.edges second
  let x ← vget m.nodes (otherNode a n)
  let y ← vget m.nodes (otherNode b n)
  let z ← vget m.nodes n
  if middle x y z then do
    let bro1 ← vset bro first second
    vset bro1 second first
  else .ok bro

/-- Loop body of `FindBrotherEdges`, `MeshRefinement.cpp:1391-1434`, for place `e` in the list `l` of edges of node `n`. -/
def brotherStep (middle : Option P → Option P → Option P → Bool) (m : Mesh P) (s : State) (n : Nat) (l : List Nat) (e : Nat)
    (bro : List Nat) : Res (List Nat) := do
  let first ← vget l e
  let c1 ← vget s.numFaces first
  let ee ← nextForward e l.length
  let second ← vget l ee
  let c2 ← vget s.numFaces second
  let p ← vget s.edgesFaces first
  let q ← vget s.edgesFaces second
  if c1 < 1 ∨ c2 < 1 then .ok bro
  else if !shareFace (twoFaces c1 p) (twoFaces c2 q) then .ok bro
  else joinBrothers middle m n first second bro

/-- `FindBrotherEdges`, `MeshRefinement.cpp:1380-1437`. -/
def findBrotherEdges (middle : Option P → Option P → Option P → Bool) (m : Mesh P) (s : State) : Res (List Nat) :=
  forRange 0 m.nodes.length (fun n bro => do
    let l ← vget m.nodesEdges n
    forRange 0 l.length (brotherStep middle m s n l) bro) (List.replicate m.edges.length missing)

/-! ## Hanging nodes of a face -/

/-- `m_isHangingNodeCache` and `m_isHangingEdgeCache`. -/
structure Hang where
  node : List Bool
  edge : List Bool
deriving DecidableEq

/-- The caches filled with `false`, `MeshRefinement.cpp:822-825`. -/
def noHang : Hang := ⟨List.replicate 6 false, List.replicate 6 false⟩

/-- The loop `MeshRefinement.cpp:862-871`: the next place around the face that holds the common node. -/
def markNode (ns : List Nat) (common : Nat) : Nat → Nat → List Bool → Res (Nat × List Bool)
  | 0, k, hang => .ok (k, hang)
  | r + 1, k, hang => do
    let k' ← nextForward k ns.length
    let n ← vget ns k'
    let b ← vget hang k'
    if n = common ∧ b = false then do
      let hang' ← vset hang k' true
      .ok (k', hang')
    else markNode ns common r k' hang

/-- The common node with the brother before or after, `MeshRefinement.cpp:841-857`. -/
def hangingAt (edges : List Edge) (bro : List Nat) (edge first second : Nat) : Res Nat := do
  let b ← vget bro edge
  if b = missing then .ok missing
  else if b = first then commonNode edges edge first
  else if b = second then commonNode edges edge second
  else .ok missing

/-- Loop body of `FindHangingNodes`, `MeshRefinement.cpp:831-873`. -/
def hangStep (edges : List Edge) (bro ns es : List Nat) (n : Nat) (s : Nat × Hang) : Res (Nat × Hang) := do
  let edge ← vget es n
  let e ← nextBackward n es.length
  let ee ← nextForward n es.length
  let first ← vget es e
  let second ← vget es ee
  let common ← hangingAt edges bro edge first second
  if common = missing then .ok s
  else do
    let he ← vset s.2.edge n true
    let r ← markNode ns common es.length s.1 s.2.node
    .ok (r.1, ⟨r.2, he⟩)

/-- `FindHangingNodes`, `MeshRefinement.cpp:813-875`. -/
def findHangingNodes (edges : List Edge) (bro : List Nat) (s : State) (f : Nat) : Res Hang := do
  let ns ← vget s.facesNodes f
  let es ← vget s.facesEdges f
  if es.length > 16 then .throw
  else do
    let r ← forRange 0 es.length (hangStep edges bro ns es) (es.length - 1, noHang)
    .ok r.2

/-! ## Masks -/

/-- `ComputeNodeMaskAtPolygonPerimeter`, one face, `MeshRefinement.cpp:759-782`. The mask of the face is overwritten before it is used. -/
def perimeterStep (s : State) (f : Nat) (mask : List Int) : Res (List Int) := do
  let ns ← vget s.facesNodes f
  if ns.any (fun n => mask.getD n 1 == 0) then
    forRange 0 ns.length (fun i mk => do
      let n ← vget ns i
      let v ← vget mk n
      if v = 1 then vset mk n (-2) else .ok mk) mask
  else .ok mask

/-- `ComputeNodeMaskAtPolygonPerimeter`, `MeshRefinement.cpp:755-784`. -/
def perimeterMask (s : State) (mask : List Int) : Res (List Int) := forRange 0 s.facesNodes.length (perimeterStep s) mask

/-- The inner loop of `ComputeRefinementMaskFromEdgeSize`, `MeshRefinement.cpp:220-225`; masks of edges and faces. -/
def sizeStep (below : List Bool) (f : Nat) (es : List Nat) (n : Nat) (r : List Int × List Int) : Res (List Int × List Int) := do
  let e ← vget es n
  let b ← vget below e
  if b then .ok r
  else do
    let em ← vset r.1 e (-1)
    let fm ← vset r.2 f 1
    .ok (em, fm)

/-- `ComputeRefinementMaskFromEdgeSize`, `MeshRefinement.cpp:212-228`. -/
def sizeMask (below : List Bool) (s : State) (numEdges : Nat) : Res (List Int × List Int) :=
  forRange 0 s.facesEdges.length (fun f r => do
    let es ← vget s.facesEdges f
    forRange 0 es.length (sizeStep below f es) r) (List.replicate numEdges 0, List.replicate s.facesEdges.length 0)

/-- The faces are masked by the nodes, `MeshRefinement.cpp:132-168`: at the first level a face needs one active node, later on all nodes
have to be active. -/
def faceActive (level : Nat) (node : List Int) (ns : List Nat) : Res Bool := do
  if ns.any (fun n => decide (node.length ≤ n)) then .ub
  else if level = 0 then .ok (ns.any (fun n => node.getD n 0 != 0 && node.getD n 0 != -2))
  else .ok (ns.all (fun n => node.getD n 0 == 1))

/-- The loops `MeshRefinement.cpp:135-151, 156-167`. -/
def maskFaces (level : Nat) (node : List Int) (s : State) (face : List Int) : Res (List Int) :=
  forRange 0 s.facesNodes.length (fun f fm => do
    let ns ← vget s.facesNodes f
    let a ← faceActive level node ns
    if a then .ok fm else vset fm f 0) face

/-- The loop for faces that are not quadrilaterals, `MeshRefinement.cpp:1173-1188`. -/
def markAll (bro es : List Nat) (n : Nat) (em : List Int) : Res (List Int) := do
  let edge ← vget es n
  let e ← nextBackward n es.length
  let ee ← nextForward n es.length
  let first ← vget es e
  let second ← vget es ee
  let b ← vget bro edge
  if b ≠ first ∧ b ≠ second then vset em edge 1 else .ok em

/-- `num`, `isQuadEdge` and `numOfEdges` in `ComputeEdgesRefinementMask`. The latter two are not reset between faces. -/
structure Quad where
  num : Nat
  quad : List Int
  numOf : List Nat
deriving DecidableEq

/-- `if (c) v[i] = a` -/
def setIf {α : Type} (c : Bool) (l : List α) (i : Nat) (a : α) : Res (List α) := if c then vset l i a else .ok l

/-- Loop body of the numbering of the sides, `MeshRefinement.cpp:1196-1215`. -/
def numberStep (em : List Int) (bro es : List Nat) (n : Nat) (q : Quad) : Res Quad := do
  let edge ← vget es n
  let numOf ← vset q.numOf n q.num
  let k ← vget em edge
  let quad1 ← setIf (k != 0) q.quad q.num k
  let ee ← nextForward n es.length
  let second ← vget es ee
  let b ← vget bro edge
  let num := if n ≠ es.length - 1 ∧ b ≠ second then q.num + 1 else q.num
  let quad2 ← setIf (b == second) quad1 num 1
  .ok ⟨num, quad2, numOf⟩

/-- The loop `MeshRefinement.cpp:1226-1240` over the four sides: their number, the first and the second one; 0 stands for none. -/
def pickSides (quad : List Int) : Nat × Nat × Nat :=
  (List.range 4).foldl (fun r i =>
    if quad.getD i 0 ≠ 0 then
      (r.1 + 1, if r.2.1 = 0 then i else r.2.1, if r.2.1 ≠ 0 ∧ r.2.2 = 0 then i else r.2.2)
    else r) (0, 0, 0)

/-- `MeshRefinement.cpp:1242-1248`: two neighbouring sides. The difference is that of unsigned numbers. -/
def twoNeighbours (quad : List Int) : Bool :=
  let r := pickSides quad
  let diff := (r.2.2 + 4294967296 - r.2.1) % 4294967296
  r.1 == 2 && (diff == 1 || diff == 3)

/-- The loop `MeshRefinement.cpp:1250-1270`. -/
def markQuad (all : Bool) (numOf es : List Nat) (n : Nat) (em : List Int) : Res (List Int) := do
  let edge ← vget es n
  let k ← vget em edge
  let e ← nextBackward n es.length
  let ee ← nextForward n es.length
  let a ← vget numOf n
  let b ← vget numOf e
  let c ← vget numOf ee
  if k > 0 then .ok em
  else if all = false ∧ k ≠ -1 then .ok em
  else if a ≠ b ∧ a ≠ c then vset em edge 1
  else .ok em

/-- The state of the sweeps over the faces: the masks of the edges, `isQuadEdge`, `numOfEdges` and `repeat`. -/
structure Sweep where
  edge : List Int
  quad : List Int
  numOf : List Nat
  again : Bool

/-- The part of the loop body for quadrilaterals, `MeshRefinement.cpp:1190-1271`. -/
def quadFace (bro es : List Nat) (w : Sweep) : Res Sweep := do
  let q ← forRange 0 es.length (numberStep w.edge bro es) ⟨0, w.quad, w.numOf⟩
  if q.num + 1 ≠ 4 then .throw
  else do
    let em ← forRange 0 es.length (markQuad (twoNeighbours q.quad) q.numOf es) w.edge
    .ok ⟨em, q.quad, q.numOf, w.again || twoNeighbours q.quad⟩

/-- The part for other faces, `MeshRefinement.cpp:1171-1189`. -/
def otherFace (bro es : List Nat) (w : Sweep) : Res Sweep := do
  let em ← forRange 0 es.length (markAll bro es) w.edge
  .ok { w with edge := em }

/-- Loop body of `ComputeEdgesRefinementMask`, `MeshRefinement.cpp:1160-1271`. `hanging` is the number of hanging edges in the
cache, which is that of the face for which `FindHangingNodes` was called last. -/
def edgeMaskStep (bro : List Nat) (face : List Int) (hanging : Nat) (s : State) (f : Nat) (w : Sweep) : Res Sweep := do
  let k ← vget face f
  let es ← vget s.facesEdges f
  if k = 0 then .ok w
  else if es.length = hanging + 4 then quadFace bro es w
  else otherFace bro es w

/-- The loop `MeshRefinement.cpp:1153-1273`; the number counts the iterations left. -/
def edgeSweeps (bro : List Nat) (face : List Int) (hanging : Nat) (s : State) : Nat → Sweep → Res Sweep
  | 0, w => .ok w
  | r + 1, w => do
    let w' ← forRange 0 s.facesEdges.length (edgeMaskStep bro face hanging s) { w with again := false }
    if w'.again then edgeSweeps bro face hanging s r w' else .ok w'

/-- `ComputeEdgesRefinementMask`, `MeshRefinement.cpp:1145-1288`. -/
def edgesRefinementMask (bro : List Nat) (face : List Int) (hang : Hang) (s : State) (edge : List Int) : Res (List Int) := do
  let w ← edgeSweeps bro face (hang.edge.countP id) s 6 ⟨edge, List.replicate 4 0, List.replicate 6 0, false⟩
  if w.again then .throw
  else .ok (w.edge.map (fun v => if v = 1 then 1 else 0))

/-- `CountEdgesToRefine`, `MeshRefinement.cpp:903-918`. -/
def countToRefine (em : List Int) : List Nat → Res Nat
  | [] => .ok 0
  | e :: es => do
    let k ← vget em e
    let r ← countToRefine em es
    .ok (if k ≠ 0 then r + 1 else r)

/-- `MeshRefinement.cpp:1327-1334`: a side with a hanging node is to be refined. -/
def hangingRefined (em : List Int) (hang : List Bool) (es : List Nat) : Res Bool :=
  forRange 0 es.length (fun n r => do
    let e ← vget es n
    let h ← vget hang n
    let k ← vget em e
    .ok (r || (h && decide (k > 0)))) false

/-- `MeshRefinement.cpp:1336-1349`. The differences are those of unsigned numbers; the first one is at most 1 only if it does not wrap around. -/
def tooManySides (sides toRefine hangingEdges hangingNodes : Nat) : Bool :=
  decide (sides + toRefine > 6) || (decide (hangingNodes + toRefine ≤ sides) && decide (sides - hangingNodes - toRefine ≤ 1)) ||
    decide (sides - hangingEdges / 2 = toRefine)

/-- The state of `ComputeIfFaceShouldBeSplit`: masks, `num` and the caches. -/
structure Spread where
  face : List Int
  edge : List Int
  num : Nat
  hang : Hang

/-- The loop `MeshRefinement.cpp:1362-1374`. -/
def markSides (hang : List Bool) (es : List Nat) (n : Nat) (r : List Int × Nat) : Res (List Int × Nat) := do
  let e ← vget es n
  let h ← vget hang n
  let k ← vget r.1 e
  if h = false ∧ k = 0 then do
    let em ← vset r.1 e 1
    .ok (em, r.2 + 1)
  else .ok r

/-- `MeshRefinement.cpp:1351-1375`. -/
def splitFace (hang : Hang) (es : List Nat) (f : Nat) (k : Int) (w : Spread) : Res Spread := do
  let fm ← vset w.face f (if k ≠ -1 then 2 else -2)
  let r ← forRange 0 es.length (markSides hang.edge es) (w.edge, w.num)
  .ok ⟨fm, r.1, r.2, hang⟩

/-- Loop body of `ComputeIfFaceShouldBeSplit`, `MeshRefinement.cpp:1306-1375`. Faces with more than 6 sides, for which the function returns
(lines 1322-1325), do not exist. -/
def spreadStep (edges : List Edge) (bro : List Nat) (s : State) (f : Nat) (w : Spread) : Res Spread := do
  let k ← vget w.face f
  if k ≠ 0 ∧ k ≠ -1 then .ok w
  else do
    let es ← vget s.facesEdges f
    let c ← countToRefine w.edge es
    let hang ← findHangingNodes edges bro s f
    let b ← hangingRefined w.edge hang.edge es
    if b || tooManySides es.length c (hang.edge.countP id) (hang.node.countP id) then splitFace hang es f k w
    else .ok { w with hang := hang }

/-- `ComputeIfFaceShouldBeSplit`, `MeshRefinement.cpp:1290-1378`; the number counts the iterations left, 1000 at the start. -/
def spread (edges : List Edge) (bro : List Nat) (s : State) : Nat → Spread → Res Spread
  | 0, w => .ok w
  | r + 1, w => do
    let w' ← forRange 0 s.facesEdges.length (spreadStep edges bro s) { w with num := 0 }
    if w'.num ≠ 0 then spread edges bro s r w' else .ok w'

/-! ## Splitting -/

/-- The state of `RefineFacesBySplittingEdges`: actions, mesh, the masks of edges and nodes, and the brother edges. -/
structure Split (P : Type) where
  acts : List (Act P)
  mesh : Mesh P
  edge : List Int
  node : List Int
  bro : List Nat

/-- The mask of a new node, `MeshRefinement.cpp:562-573`. -/
def midMask (x y : Int) : Int := if x = 0 ∧ y = 0 then 0 else if x ≠ 1 ∨ y ≠ 1 then -1 else 1

/-- The coordinates of a node; nodes without coordinates do not occur at a side of a face. -/
def pointOf (m : Mesh P) (n : Nat) : Res P := do
  let v ← vget m.nodes n
  match v with
  | some p => .ok p
  | none => .ub

/-- `MeshRefinement.cpp:527-573`: a node in the middle of an edge. -/
def addMiddle (mid : P → P → P) (e : Nat) (s : Split P) : Res (Split P) := do
  let a ← vget s.mesh.edges e
  let p ← pointOf s.mesh a.1
  let q ← pointOf s.mesh a.2
  let r ← insertNodeU s.mesh (some (mid p q))
  let em ← vset s.edge e (s.mesh.nodes.length : Int)
  let x ← vget (s.node ++ [1]) a.1
  let y ← vget (s.node ++ [1]) a.2
  let nm ← vset (s.node ++ [1]) s.mesh.nodes.length (midMask x y)
  .ok ⟨s.acts ++ r.1, r.2, em, nm, s.bro⟩

/-- The loop body `MeshRefinement.cpp:522-573`. -/
def middleStep (mid : P → P → P) (e : Nat) (s : Split P) : Res (Split P) := do
  let k ← vget s.edge e
  if k = 0 then .ok s else addMiddle mid e s

/-- The node at side `e` of a face, `MeshRefinement.cpp:621-635`: the hanging node between the side and the next one, or the middle of the
side. -/
def sideNode (edges : List Edge) (em : List Int) (bro es : List Nat) (e : Nat) : Res (List Nat) := do
  let first ← nextBackward e es.length
  let second ← nextForward e es.length
  let edge ← vget es e
  let firstEdge ← vget es first
  let secondEdge ← vget es second
  let b ← vget bro edge
  let k ← vget em edge
  if b = secondEdge ∧ secondEdge ≠ missing then do
    let n ← commonNode edges edge b
    .ok [n]
  else if (b ≠ firstEdge ∨ b = missing) ∧ k ≠ 0 then .ok [k.toNat]
  else .ok []

/-- The loop `MeshRefinement.cpp:602-647` for `notHangingFaceNodes`, with the sides left to do; nothing when there are 6 nodes, in which case the
function returns (lines 637-640). -/
def sideNodes (edges : List Edge) (em : List Int) (bro es : List Nat) : List Nat → List Nat → Res (Option (List Nat))
  | [], acc => .ok (some acc)
  | e :: l, acc => do
    let n ← sideNode edges em bro es e
    if (acc ++ n).length ≥ 6 then .ok none else sideNodes edges em bro es l (acc ++ n)

/-- `ConnectNodes` and `Add`, as in `MeshRefinement.cpp:709-710`. -/
def connect (s : Split P) (x y : Nat) : Res (Split P) := do
  let r ← connectNodesU s.mesh x y
  .ok { s with acts := s.acts ++ r.1, mesh := r.2 }

/-- Connect a list of pairs. -/
def connectAll : List (Nat × Nat) → Split P → Res (Split P)
  | [], s => .ok s
  | p :: l, s => do
    let s' ← connect s p.1 p.2
    connectAll l s'

/-- `MeshRefinement.cpp:704-718`: a node in the face, connected with the nodes of the sides. -/
def addCentre (c : P) (crossed : Bool) (ns : List Nat) (s : Split P) : Res (Split P) := do
  let r ← insertNodeU s.mesh (some c)
  let s1 ← connectAll (ns.map (fun n => (n, s.mesh.nodes.length))) { s with acts := s.acts ++ r.1, mesh := r.2 }
  let nm ← setIf crossed (s1.node ++ [1]) s.mesh.nodes.length (-1)
  .ok { s1 with node := nm }

/-- The pairs of successive entries of a cyclic list. -/
def cyclicPairs (l : List Nat) : List (Nat × Nat) := l.zip (l.drop 1 ++ l.take 1)

/-- `MeshRefinement.cpp:700-734`; `sides` is the size of `localEdgesNumFaces`. -/
def connectFace (c : P) (crossed : Bool) (sides : Nat) (ns : List Nat) (s : Split P) : Res (Split P) :=
  if sides ≥ 4 then
    if ns.length > 2 then addCentre c crossed ns s
    else if ns.length = 2 then connectAll [(ns.getD 0 0, ns.getD 1 0)] s
    else .ok s
  else connectAll (cyclicPairs ns) s

/-- The number of sides that start at a node taken as not hanging, `MeshRefinement.cpp:642-646`: the test is `!= or !=`, which is met by
every side. -/
def sidesKept (bro es : List Nat) : Res Nat :=
  forRange 0 es.length (fun e r => do
    let first ← nextBackward e es.length
    let edge ← vget es e
    let firstEdge ← vget es first
    let b ← vget bro edge
    .ok (if b ≠ firstEdge ∨ firstEdge ≠ missing then r + 1 else r)) 0

/-- The loop body `MeshRefinement.cpp:583-734` for a face to be refined; nothing when the function returns. `centre` is the point at which the
face is split, lines 649-698. -/
def refineFace (centre : Nat → P) (st : State) (f : Nat) (s : Split P) : Res (Option (Split P)) := do
  let ns ← vget st.facesNodes f
  let es ← vget st.facesEdges f
  let l ← sideNodes s.mesh.edges s.edge s.bro es (List.range es.length) []
  match l with
  | none => .ok none
  | some nodes => do
    let sides ← sidesKept s.bro es
    let s' ← connectFace (centre f) (ns.any (fun n => s.node.getD n 0 != 1)) sides nodes s
    .ok (some s')

/-- The loop `MeshRefinement.cpp:576-735`; the flag tells that the function has returned inside the loop. -/
def refineFaces (centre : Nat → P) (st : State) (face : List Int) : List Nat → Split P → Res (Bool × Split P)
  | [], s => .ok (false, s)
  | f :: fs, s => do
    let k ← vget face f
    if k = 0 then refineFaces centre st face fs s
    else do
      let r ← refineFace centre st f s
      match r with
      | none => .ok (true, s)
      | some s' => refineFaces centre st face fs s'

/-- `m_brotherEdges.resize(n)`: new entries are 0. -/
def resize (l : List Nat) (n : Nat) : List Nat := l.take n ++ List.replicate (n - l.length) 0

/-- `MeshRefinement.cpp:742-748`: an edge is cut in two; `k` is the node in its middle. -/
def cutEdge (e k : Nat) (s : Split P) : Res (Split P) := do
  let a ← vget s.mesh.edges e
  let f ← connectNodes s.mesh k a.2
  let r ← connectNodesU s.mesh k a.2
  let r' ← resetEdgeU r.2 e (a.1, k)
  let b1 ← vset (resize s.bro r'.2.edges.length) f.1 e
  let b2 ← vset b1 e f.1
  .ok { s with acts := s.acts ++ r.1 ++ r'.1, mesh := r'.2, bro := b2 }

/-- The loop body `MeshRefinement.cpp:740-749`. -/
def cutStep (e : Nat) (s : Split P) : Res (Split P) := do
  let k ← vget s.edge e
  if k > 0 then cutEdge e k.toNat s else .ok s

/-- `RefineFacesBySplittingEdges`, `MeshRefinement.cpp:503-753`. -/
def refineBySplitting (mid : P → P → P) (centre : Nat → P) (st : State) (face : List Int) (s : Split P) : Res (Split P) := do
  let s1 ← forRange 0 s.mesh.edges.length (middleStep mid) s
  let r ← refineFaces centre st face (List.range st.facesNodes.length) s1
  if r.1 then .ok r.2 else forRange 0 s.mesh.edges.length cutStep r.2

/-! ## Hanging nodes -/

/-- `edgeEndNodeCache`, `hangingNodeCache` and `numNonHangingNodes`; entries that are not set are missing. -/
structure Ends where
  ends : List Nat
  hang : List Nat

/-- Loop body `MeshRefinement.cpp:343-373`. -/
def endsStep (edges : List Edge) (bro es : List Nat) (n : Nat) (c : Ends) : Res Ends := do
  let e ← nextBackward n es.length
  let ee ← nextForward n es.length
  let edge ← vget es n
  let first ← vget es e
  let second ← vget es ee
  let b ← vget bro edge
  if b = second then .ok c
  else do
    let x ← commonNode edges edge second
    let y ← if b = first then commonNode edges edge first else .ok missing
    .ok ⟨c.ends ++ [x], c.hang ++ [y]⟩

/-- The connections made in a face with the given ends of sides and hanging nodes, `MeshRefinement.cpp:383-493`, for the first
side with a hanging node; `none` stands for the exceptions of lines 418 and 496. Places are taken modulo the number of sides. -/
def connections (c : Ends) (hanging : Nat) : Option (List (Nat × Nat)) :=
  let k := c.ends.length
  let x := fun i => c.ends.getD (i % k) missing
  let h := fun i => c.hang.getD (i % k) missing
  let n := c.hang.findIdx (fun v => v != missing)
  if k = 4 then
    if n = k then some []
    else if hanging = 1 then some [(x (n + 2), h n), (x (n + 1), h n)]
    else if hanging = 2 then
      if n + 1 = k then none
      else if h (n + 3) ≠ missing then some [(h (n + 3), h n), (h n, x (n + 1)), (x (n + 1), h (n + 3))]
      else if h (n + 1) ≠ missing then some [(h n, h (n + 1)), (h (n + 1), x (n + 2)), (x (n + 2), h n)]
      else if h (n + 2) ≠ missing then some [(h n, h (n + 2))]
      else some []
    else some []
  else if k = 3 then
    if n = k then some []
    else if hanging = 1 then some [(h n, x (n + 1))]
    else if hanging = 2 then some [if h (n + 2) ≠ missing then (h n, h (n + 2)) else (h n, h (n + 1))]
    else some []
  else none

/-- Loop body of `ConnectHangingNodes`, `MeshRefinement.cpp:332-497`, on actions and mesh. -/
def connectHangingStep (bro : List Nat) (st : State) (f : Nat) (s : Split P) : Res (Split P) := do
  let es ← vget st.facesEdges f
  let c ← forRange 0 es.length (endsStep s.mesh.edges bro es) ⟨[], []⟩
  if es.length = c.ends.length then .ok s
  else match connections c (es.length - c.ends.length) with
    | none => .throw
    | some l => connectAll l s

/-- `ConnectHangingNodes`, `MeshRefinement.cpp:323-501`. -/
def connectHangingNodes (st : State) (s : Split P) : Res (Split P) :=
  forRange 0 st.facesEdges.length (connectHangingStep s.bro st) s

/-! ## The whole refinement -/

/-- What differs between the kinds of refinement and what is geometry. -/
structure Setting (P : Type) where
  mid : P → P → P
  /-- the point at which a face is split -/
  centre : Mesh P → State → Nat → P
  /-- a node lies in the middle between two others -/
  middle : Option P → Option P → Option P → Bool
  /-- the order of the edges around a node -/
  order : Mesh P → Nat → List Nat → List Nat
  clockwise : List (Option P) → List Nat → Bool
  /-- the nodes selected by the polygon, 0 or 1, `MeshRefinement.cpp:99-107` -/
  nodeMask : Mesh P → State → List Int
  /-- the marks of edges and faces at a level, `MeshRefinement.cpp:120-130`, with the caches left behind -/
  marks : Nat → Mesh P → State → List Nat → Hang → Res ((List Int × List Int) × Hang)
  maxLevels : Nat
  connectHanging : Bool

/-- `Administrate` with an undo action, `Mesh2D.cpp:153-168`, up to the search for the faces. -/
def administrateAll (g : Setting P) (m : Mesh P) : Res (List (Act P) × Mesh P × State) := do
  let r ← Regions.administrateU (g.order m) m
  let s ← findFaces r.2.edges r.2.nodesEdges (g.clockwise r.2.nodes) (validNode r.2.nodes) r.2.nodes.length (initial r.2.edges.length)
  .ok (r.1, r.2, s)

/-- The state between two levels: actions, mesh, faces, node mask, brother edges and caches. -/
structure Level (P : Type) where
  acts : List (Act P)
  mesh : Mesh P
  st : State
  node : List Int
  bro : List Nat
  hang : Hang

/-- The masks of faces and edges at a level, `MeshRefinement.cpp:120-172`, with the caches left behind. -/
def levelMasks (g : Setting P) (level : Nat) (v : Level P) : Res Spread := do
  let k ← g.marks level v.mesh v.st v.bro v.hang
  let fm ← maskFaces level v.node v.st k.1.2
  let em ← edgesRefinementMask v.bro fm k.2 v.st k.1.1
  spread v.mesh.edges v.bro v.st 1000 ⟨fm, em, 0, k.2⟩

/-- `MeshRefinement.cpp:188-199`. -/
def refineLevel (g : Setting P) (w : Spread) (v : Level P) : Res (Level P) := do
  let s ← refineBySplitting g.mid (g.centre v.mesh v.st) v.st w.face ⟨v.acts, v.mesh, w.edge, v.node, v.bro⟩
  let a ← administrateAll g s.mesh
  let bro ← findBrotherEdges g.middle a.2.1 a.2.2
  .ok ⟨s.acts ++ a.1, a.2.1, a.2.2, s.node, bro, w.hang⟩

/-- The loop over the levels, `MeshRefinement.cpp:117-200`; the first number counts the levels left. -/
def levels (g : Setting P) : Nat → Nat → Level P → Res (Level P)
  | 0, _, v => .ok v
  | r + 1, level, v => do
    let w ← levelMasks g level v
    if w.face.all (· == 0) then .ok { v with hang := w.hang }
    else do
      let v' ← refineLevel g w v
      levels g r (level + 1) v'

/-- `MeshRefinement.cpp:202-207`. -/
def finish (g : Setting P) (v : Level P) : Res (List (Act P) × Mesh P) :=
  if g.connectHanging then do
    let s ← connectHangingNodes v.st ⟨v.acts, v.mesh, [], v.node, v.bro⟩
    let a ← administrateAll g s.mesh
    .ok (s.acts ++ a.1, a.2.1)
  else .ok (v.acts, v.mesh)

/-- `MeshRefinement::Compute`, `MeshRefinement.cpp:77-210`. -/
def compute (g : Setting P) (m : Mesh P) : Res (List (Act P) × Mesh P) := do
  let a ← administrateAll g m
  let bro ← findBrotherEdges g.middle a.2.1 a.2.2
  let node ← perimeterMask a.2.2 (g.nodeMask a.2.1 a.2.2)
  let v ← levels g g.maxLevels 0 ⟨a.1, a.2.1, a.2.2, node, bro, ⟨[], []⟩⟩
  finish g v

/-- The marks of a refinement by polygon, `MeshRefinement.cpp:129, 1126-1135`; `short` tells that half the edge is shorter than the smallest
edge allowed. The caches are not touched. -/
def sizeMarks (short : Option P → Option P → Bool) (_ : Nat) (m : Mesh P) (s : State) (_ : List Nat) (h : Hang) :
    Res ((List Int × List Int) × Hang) := do
  let r ← sizeMask (m.edges.map (fun e => short (m.nodes[e.1]?.join) (m.nodes[e.2]?.join))) s m.edges.length
  .ok (r, h)

end Verif.Refine
