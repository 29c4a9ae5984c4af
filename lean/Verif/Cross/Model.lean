import Verif.Faces.Model
/-!
# Model: the edges and faces a polygon crosses

Models `libs/MeshKernel/src/Mesh2DIntersections.cpp`.  The walk is written for any test `hit` of a segment of the polyline against
an edge (`AreSegmentsCrossing`) and any test `near` of the bounding boxes; `Verif.Cross.SegmentModel` has the tests of the Cartesian
projection.  Edges with a missing node have a box that overlaps no other (`Mesh2D.cpp:2323-2327`), and edges of faces have
no missing node, so `hit` never meets a missing node.
-/
namespace Verif.Cross

/-- What the walk reads: the number of segments of the polyline (one less than its points), the tests,
`m_facesEdges` and `m_edgesFaces`. -/
structure Data where
  numSeg : Nat
  hit : Nat → Nat → Bool
  near : Nat → Nat → Bool
  facesEdges : List (List Nat)
  edgesFaces : List (Nat × Nat)

/-- The local variables of `Compute`, `Mesh2DIntersections.cpp:250-369`: `vistedEdges`, `vistedFaces`, of
`m_edgesIntersectionsCache` the segment index (the other entries follow from it), of `m_facesIntersectionsCache` the edge indices
(the face index is set when there is one), and `crossingEdges`. -/
structure St where
  seen : List Bool
  seenFace : List Bool
  found : List (Option Nat)
  faces : List (List Nat)
  queue : List (Nat × Nat)
deriving DecidableEq, Repr

variable (w : Data)

/-- `GetNextEdgeIntersection` forward, `Mesh2DIntersections.cpp:124-168`: `maxSearchSegments` rounds (first argument) from a segment on. -/
def forward (e : Nat) : Nat → Nat → Option Nat
  | 0, _ => none
  | k + 1, first =>
    if first + 1 < w.numSeg then
      if w.near (first + 1) e && w.hit (first + 1) e then some (first + 1) else forward e k (first + 1)
    else none

/-- `GetNextEdgeIntersection` backward, `Mesh2DIntersections.cpp:124-168`. -/
def backward (e : Nat) : Nat → Nat → Option Nat
  | k + 1, first + 1 => if w.near first e && w.hit first e then some first else backward e k first
  | _, _ => none

/-- The search for a segment that crosses edge `e`, `Mesh2DIntersections.cpp:188-221`; 1000 is `maxSearchSegments`. -/
def locate (seg e : Nat) : Option Nat :=
  if w.hit seg e then some seg
  else
    match forward w e 1000 seg with
    | some i => some i
    | none => backward w e 1000 seg

/-- `updateEdgeIntersections`, `updateFaceIntersections` and what follows, `Mesh2DIntersections.cpp:229-245`. -/
def record (current f e i : Nat) (s : St) : Res St := do
  let found ← vset s.found e (some i)
  let l ← vget s.faces f
  let faces ← vset s.faces f (l ++ [e])
  let seen ← vset s.seen e true
  .ok { s with found := found, faces := faces, seen := seen, queue := if e ≠ current then s.queue ++ [(e, i)] else s.queue }

/-- One round of the loop of `IntersectFaceEdges`, `Mesh2DIntersections.cpp:180-246`. -/
def faceStep (current seg f e : Nat) (s : St) : Res St := do
  let v ← vget s.seen e
  let u ← vget s.seenFace f
  if v && u then .ok s
  else
    match locate w seg e with
    | none => .ok s
    | some i => record current f e i s

/-- The loop of `IntersectFaceEdges`, `Mesh2DIntersections.cpp:180-246`. -/
def faceLoop (current seg f : Nat) : List Nat → St → Res St
  | [], s => .ok s
  | e :: es, s => do
    let s1 ← faceStep w current seg f e s
    faceLoop current seg f es s1

/-- `IntersectFaceEdges`, `Mesh2DIntersections.cpp:170-248`, left out for the missing face (`Mesh2DIntersections.cpp:297-300`). -/
def visitFace (current seg f : Nat) (s : St) : Res St :=
  if f = missing then .ok s
  else do
    let es ← vget w.facesEdges f
    let s1 ← faceLoop w current seg f es s
    let sf ← vset s1.seenFace f true
    .ok { s1 with seenFace := sf }

/-- Both places of `m_edgesFaces`, `Mesh2DIntersections.cpp:295-310`. -/
def visitEdge (current seg : Nat) (s : St) : Res St := do
  let p ← vget w.edgesFaces current
  let s1 ← visitFace w current seg p.1 s
  visitFace w current seg p.2 s1

/-- The loop over the queue, `Mesh2DIntersections.cpp:290-311`; `none` if it does not end within so many rounds. -/
def drain (k : Nat) (s : St) : Res (Option St) :=
  match s.queue with
  | [] => .ok (some s)
  | (e, seg) :: q =>
    match k with
    | 0 => .ok none
    | k + 1 => do
      let s1 ← visitEdge w e seg { s with queue := q }
      drain k s1

/-- `GetIntersectionSeed`, `Mesh2DIntersections.cpp:35-92`: the first segment that crosses an edge not seen yet, and the first such edge. -/
def seed (s : St) : Option (Nat × Nat) :=
  (List.range w.numSeg).findSome? fun i =>
    ((List.range w.edgesFaces.length).find? fun e => !s.seen.getD e false && w.near i e && w.hit i e).map fun e => (e, i)

/-- The outer loop, `Mesh2DIntersections.cpp:272-312`; `none` if it does not end within so many rounds, `k` for the inner loop. -/
def rounds (k : Nat) : Nat → St → Res (Option St)
  | 0, _ => .ok none
  | n + 1, s =>
    match seed w s with
    | none => .ok (some s)
    | some (e, i) => do
      let r ← drain w k { s with queue := s.queue ++ [(e, i)] }
      match r with
      | none => .ok none
      | some s1 => rounds k n s1

/-- The start, `Mesh2DIntersections.cpp:253-254, 267-269`; the faces seen are listed by the number of edges. -/
def start : St :=
  ⟨List.replicate w.edgesFaces.length false, List.replicate w.edgesFaces.length false, List.replicate w.edgesFaces.length none,
    List.replicate w.facesEdges.length [], []⟩

/-- The loops of `Compute`, `Mesh2DIntersections.cpp:250-312`, cut off after `k` rounds each. -/
def walk (k : Nat) : Res (Option St) := rounds w k k (start w)

/-! ## All rings of the polygon -/

/-- `m_edgesIntersections` (number of the ring and segment index) and `m_faceIntersections` (edge indices). -/
structure Result where
  edges : List (Option (Nat × Nat))
  faces : List (List Nat)
deriving DecidableEq, Repr

/-- `Mesh2DIntersections.cpp:345-368` after ring number `r`; `sort` is the order in which the edges of a face are put,
`Mesh2DIntersections.cpp:315-343`. -/
def merge (r : Nat) (sort : List Nat → List Nat) (s : St) (res : Result) : Result :=
  ⟨res.edges.zipWith (fun a b => if a.isNone then b.map fun i => (r, i) else a) s.found,
    res.faces.zipWith (fun l l' => if !l.isEmpty && !l'.isEmpty then l ++ sort l' else if !l'.isEmpty then sort l' else l) s.faces⟩

/-- The loop over the rings, `Mesh2DIntersections.cpp:380-395`; each comes with its tests. -/
def rings (k : Nat) : Nat → List (Data × (St → List Nat → List Nat)) → Result → Res (Option Result)
  | _, [], res => .ok (some res)
  | r, (w, sort) :: ws, res => do
    let s ← walk w k
    match s with
    | none => .ok none
    | some s => rings k (r + 1) ws (merge r (sort s) s res)

/-- The start, `Mesh2DIntersections.cpp:24-25`. -/
def noResult (numEdges numFaces : Nat) : Result := ⟨List.replicate numEdges none, List.replicate numFaces []⟩

end Verif.Cross
