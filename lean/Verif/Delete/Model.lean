import Verif.Faces.Model
import Verif.Regions.Model
/-!
# Model: deleting a part of a mesh

Models `Mesh2D::DeleteMesh`, `DeleteMeshFaces`, `GetHangingEdges` and `DeleteHangingEdges` of `libs/MeshKernel/src/Mesh2D.cpp`.
Whether a point lies in the polygons (`Polygons::IsPointInPolygons`, `Verif.Polygons.ContainsModel`) and which faces the polygons cross
(`Mesh2DIntersections`, `Verif.Cross`) are parameters, as are the circumcentres of the faces.  The flags of the search trees are left
out.
-/
namespace Verif.Delete
open Verif.Mesh Verif.Faces Verif.Regions
variable {P : Type}

/-- `DeleteMeshOptions`, `Mesh2D.hpp:62-67`, without `FacesWithIncludedCircumcenters`. -/
inductive Choice where
  | insideNotIntersected
  | insideAndIntersected
deriving DecidableEq, Repr

/-- `excludedFace`, `Mesh2D.cpp:1737-1758`, of a face with all nodes in the polygon or not and crossed or not. -/
def excludedFace (c : Choice) (invert included crossed : Bool) : Bool :=
  match c, invert with
  | .insideNotIntersected, false => !included || crossed
  | .insideNotIntersected, true => included && !crossed
  | .insideAndIntersected, false => !included && !crossed
  | .insideAndIntersected, true => included || crossed

/-- `isNodeInsidePolygon`, `Mesh2D.cpp:1700-1721`. -/
def insideNodes (inside : P → Bool) (nodes : List (Option P)) : List Bool :=
  nodes.map fun v => match v with
    | some p => inside p
    | none => false

/-- `deleteNode`, `Mesh2D.cpp:1701-1721`. -/
def nodeFlags (inside : P → Bool) (invert : Bool) (nodes : List (Option P)) : List Bool :=
  nodes.map fun v => match v with
    | some p => if inside p then !invert else invert
    | none => false

/-- The loop over the nodes of a face, `Mesh2D.cpp:1726-1734`. -/
def allInside (flags : List Bool) : List Nat → Res Bool
  | [] => .ok true
  | n :: ns => do
    let b ← vget flags n
    if !b then .ok false else allInside flags ns

/-- `isFaceCompletlyIncludedInPolygon`, `Mesh2D.cpp:1723-1735`. -/
def includedFaces (flags : List Bool) : List (List Nat) → Res (List Bool)
  | [] => .ok []
  | ns :: fs => do
    let b ← allInside flags ns
    let bs ← includedFaces flags fs
    .ok (b :: bs)

/-- `excludedFace(f)`, `Mesh2D.cpp:1737-1758`. -/
def excluded (c : Choice) (invert : Bool) (included crossed : List Bool) (f : Nat) : Res Bool := do
  let a ← vget included f
  let b ← vget crossed f
  .ok (excludedFace c invert a b)

/-- The conditions `Mesh2D.cpp:1763-1776`. -/
def keepEdge (excl : Nat → Res Bool) (s : State) (e : Nat) : Res Bool := do
  let k ← vget s.numFaces e
  let p ← vget s.edgesFaces e
  if k = 1 then excl p.1
  else if k = 2 then do
    let a ← excl p.1
    if a then .ok true else excl p.2
  else .ok false

/-- `Mesh2D.cpp:1778-1786` for one end. -/
def countDown (count : List Nat) (n : Nat) : Res (List Nat) :=
  if n = missing then .ok count
  else do
    let k ← vget count n
    if k > 0 then vset count n (k - 1) else .ok count

/-- The variables of the loop over the edges. -/
structure Loop (P : Type) where
  flags : List Bool
  count : List Nat
  acts : List (Act P)
  mesh : Mesh P

/-- One round of the loop over the edges, `Mesh2D.cpp:1761-1789`. -/
def edgeStep (keep : Nat → Res Bool) (e : Nat) (s : Loop P) : Res (Loop P) := do
  let b ← keep e
  let p ← vget s.mesh.edges e
  if b then do
    let f1 ← vset s.flags p.1 false
    let f2 ← vset f1 p.2 false
    .ok { s with flags := f2 }
  else do
    let c1 ← countDown s.count p.1
    let c2 ← countDown c1 p.2
    let r ← deleteEdgeU s.mesh e
    .ok { s with count := c2, acts := s.acts ++ r.1, mesh := r.2 }

/-- One round of the loop over the nodes, `Mesh2D.cpp:1791-1797`. -/
def nodeStep (flags : List Bool) (count : List Nat) (n : Nat) (r : List (Act P) × Mesh P) : Res (List (Act P) × Mesh P) := do
  let b ← vget flags n
  let k ← vget count n
  let v ← vget r.2.nodes n
  if (b || k == 0) && v.isSome then do
    let q ← deleteNodeU r.2 n
    .ok (r.1 ++ q.1, q.2)
  else .ok r

/-- `DeleteMesh` from `Mesh2D.cpp:1699` on, for the mesh `m` with faces `s`. -/
def deletePart (inside : P → Bool) (crossed : List Bool) (c : Choice) (invert : Bool) (order : Nat → List Nat → List Nat) (m : Mesh P) (s : State) :
    Res (List (Act P) × Mesh P) := do
  let included ← includedFaces (insideNodes inside m.nodes) s.facesNodes
  let l ← forRange 0 m.edges.length (edgeStep (keepEdge (excluded c invert included crossed) s)) ⟨nodeFlags inside invert m.nodes, m.numEdges, [], m⟩
  let r ← forRange 0 m.nodes.length (nodeStep l.flags l.count) (l.acts, l.mesh)
  let q ← administrateU order r.2
  .ok (r.1 ++ q.1, q.2)

/-- What `DeleteMesh` leaves: the mesh, and the undo actions unless it has thrown. -/
abbrev Outcome (P : Type) := Option (List (Act P)) × Mesh P

/-- `DeleteMesh`, `Mesh2D.cpp:1685-1804`, with the constructor of `Mesh2DIntersections`, `Mesh2DIntersections.cpp:9-21`, which
administrates the mesh without undo action.  `order` and `order'` give the order of the edges around the nodes before and after. -/
def deleteMesh (inside : P → Bool) (crossed : Mesh P → State → List Bool) (c : Choice) (invert : Bool) (order order' : Nat → List Nat → List Nat)
    (cw : List (Option P) → List Nat → Bool) (m : Mesh P) : Res (Outcome P) :=
  if m.nodes.length = 0 then .ok (none, m)
  else do
    let (m1, s) ← doAdministration order cw m
    if s.facesEdges.length = 0 then .ok (none, m1)
    else do
      let r ← deletePart inside (crossed m1 s) c invert order' m1 s
      .ok (some r.1, r.2)

/-! ## By circumcentres -/

/-- The loop over the faces of an edge, `Mesh2D.cpp:1816-1835`; `centre f`: the circumcentre of face `f` lies in the polygon. -/
def allCentres (centre : Nat → Bool) (invert : Bool) : List Nat → Bool
  | [] => true
  | f :: fs => if f = missing then allCentres centre invert fs else if (if invert then !centre f else centre f) then allCentres centre invert fs else false

/-- `Mesh2D.cpp:1837-1857` for an edge without face: `none` to go on with the next edge. -/
def looseEdge (middle : P → P → Bool) (invert : Bool) (nodes : List (Option P)) (p : Edge) : Res (Option Bool) :=
  if p.1 = missing ∨ p.2 = missing then .ok none
  else do
    let a ← vget nodes p.1
    let b ← vget nodes p.2
    match a, b with
    | some a, some b => .ok (some (if invert then !middle a b else middle a b))
    | _, _ => .ok (some invert)

/-- Is the edge to be deleted, `Mesh2D.cpp:1814-1859`. -/
def toDelete (centre : Nat → Bool) (middle : P → P → Bool) (invert : Bool) (s : State) (m : Mesh P) (e : Nat) : Res Bool := do
  let k ← vget s.numFaces e
  let p ← vget s.edgesFaces e
  let q ← vget m.edges e
  if k = 0 then do
    let r ← looseEdge middle invert m.nodes q
    .ok (r.getD false)
  else .ok (allCentres centre invert ([p.1, p.2].take k))

/-- One round of the loop over the edges, `Mesh2D.cpp:1812-1863`. -/
def centreStep (centre : Nat → Bool) (middle : P → P → Bool) (invert : Bool) (s : State) (e : Nat) (r : List (Act P) × Mesh P) : Res (List (Act P) × Mesh P) := do
  let b ← toDelete centre middle invert s r.2 e
  if b then do
    let q ← deleteEdgeU r.2 e
    .ok (r.1 ++ q.1, q.2)
  else .ok r

/-- `DeleteMeshFaces`, `Mesh2D.cpp:1806-1868`; `centre` depends on the mesh and its faces. -/
def deleteMeshFaces (centre : Mesh P → State → Nat → Bool) (middle : P → P → Bool) (invert : Bool) (order order' : Nat → List Nat → List Nat)
    (cw : List (Option P) → List Nat → Bool) (m : Mesh P) : Res (List (Act P) × Mesh P) := do
  let a ← administrateU order m
  let s ← findFaces a.2.edges a.2.nodesEdges (cw a.2.nodes) (validNode a.2.nodes) a.2.nodes.length (initial a.2.edges.length)
  let r ← forRange 0 a.2.edges.length (centreStep (centre a.2 s) middle invert s) a
  let q ← administrateU order' r.2
  .ok (r.1 ++ q.1, q.2)

/-! ## Hanging edges -/

/-- The condition `Mesh2D.cpp:1620-1630`. -/
def isHanging (m : Mesh P) (e : Nat) : Res Bool := do
  let p ← vget m.edges e
  if p.1 = missing ∨ p.2 = missing then .ok false
  else do
    let a ← vget m.numEdges p.1
    let b ← vget m.numEdges p.2
    .ok (!(decide (a > 1) && decide (b > 1)))

/-- The loop of `GetHangingEdges`, `Mesh2D.cpp:1618-1632`, over the given edges. -/
def hangingLoop (m : Mesh P) : List Nat → Res (List Nat)
  | [] => .ok []
  | e :: es => do
    let b ← isHanging m e
    let r ← hangingLoop m es
    .ok (if b then e :: r else r)

/-- `GetHangingEdges`, `Mesh2D.cpp:1615-1635`. -/
def hangingEdges (m : Mesh P) : Res (List Nat) := hangingLoop m (List.range m.edges.length)

/-- `DeleteHangingEdges`, `Mesh2D.cpp:1870-1880`. -/
def deleteHangingEdges (m : Mesh P) : Res (List (Act P) × Mesh P) := do
  let l ← hangingEdges m
  deleteEdgesU m l

end Verif.Delete
