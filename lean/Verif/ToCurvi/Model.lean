import Verif.Refine.Model
import Verif.Curvi.Grid
/-!
# Model: turning a mesh into a curvilinear grid

Models `libs/MeshKernel/src/Mesh2DToCurvilinear.cpp` and `mkernel_mesh2d_convert_to_curvilinear`,
`libs/MeshKernelApi/src/MeshKernel.cpp:1120-1142`.

`P` is the type of coordinates of a valid node, an invalid one is `none`.  The faces are those `Verif.Faces` finds.  Two steps are
parameters: the face with the centre nearest to the given point, and whether the face contains the point.
-/
namespace Verif.ToCurvi
open Verif.Mesh Verif.Faces Verif.Refine Verif.Curvi
variable {P : Type}

/-- `constants::missing::intValue`, `libs/MeshKernel/include/MeshKernel/Constants.hpp:57`: the index of a node without a place. -/
def noIndex : Int := -999

/-! ## The matrix with negative indices -/

/-- `MatrixWithNegativeIndices`, `Mesh2DToCurvilinear.hpp:57-176`, addressed by row `j` and column `i`.  Simplified: the entries are node
numbers or nothing instead of `int` with a missing value, so nodes are numbered below 2³¹. -/
structure Mapping where
  cell : Int → Int → Option Nat
  minJ : Int
  minI : Int
  maxJ : Int
  maxI : Int

/-- The element is inside of the matrix. -/
def Mapping.inside (t : Mapping) (j i : Int) : Bool := decide (t.minJ ≤ j) && decide (j ≤ t.maxJ) && decide (t.minI ≤ i) && decide (i ≤ t.maxI)

/-- The matrix of a new object, `Mesh2DToCurvilinear.hpp:171-175`.  Simplified: its one element has no value yet in the code; it gets one
before it is read (`Mesh2DToCurvilinear.cpp:92`). -/
def Mapping.new : Mapping := ⟨fun _ _ => none, 0, 0, 0, 0⟩

/-- `getValue` and `IsValid`, `Mesh2DToCurvilinear.hpp:64-70, 86-91`. -/
def Mapping.get (t : Mapping) (j i : Int) : Res (Option Nat) := if t.inside j i then .ok (t.cell j i) else .ub

/-- `setValue`, `Mesh2DToCurvilinear.hpp:75-80`. -/
def Mapping.set (t : Mapping) (j i : Int) (n : Nat) : Res Mapping :=
  if t.inside j i then .ok { t with cell := fun j' i' => if j' = j ∧ i' = i then some n else t.cell j' i' } else .ub

/-- `resize`, `Mesh2DToCurvilinear.hpp:140-168`. -/
def Mapping.resize (t : Mapping) (minJ minI maxJ maxI : Int) : Mapping where
  cell := fun j i => if t.inside j i then t.cell j i else none
  minJ := min t.minJ minJ
  minI := min t.minI minI
  maxJ := max t.maxJ maxJ
  maxI := max t.maxI maxI

/-! ## The places of the nodes -/

/-- `m_i`, `m_j`, `m_mapping`, `Mesh2DToCurvilinear.hpp:197-198, 217`. -/
structure Front where
  i : List Int
  j : List Int
  map : Mapping

/-- `m_i[n] = i; m_j[n] = j;` -/
def Front.index (t : Front) (n : Nat) (i j : Int) : Res Front := do
  let is ← vset t.i n i
  let js ← vset t.j n j
  .ok { t with i := is, j := js }

/-- `m_mapping.setValue(j, i, n)` -/
def Front.enter (t : Front) (n : Nat) (i j : Int) : Res Front := do
  let map ← t.map.set j i n
  .ok { t with map := map }

/-- One of the four steps of `Mesh2DToCurvilinear.cpp:88-108`: the node that two sides of the first face share. -/
def corner (edges : List Edge) (es : List Nat) (a b : Nat) (i j : Int) (t : Front) : Res Front := do
  let e ← vget es a
  let e' ← vget es b
  let n ← findCommonNode edges e e'
  let t1 ← t.index n i j
  t1.enter n i j

/-- `Mesh2DToCurvilinear.cpp:77-108`: the first face. -/
def seed (m : Mesh P) (s : State) (f : Nat) : Res Front := do
  let es ← vget s.facesEdges f
  let n := m.nodes.length
  let t0 : Front := ⟨List.replicate n noIndex, List.replicate n noIndex, Mapping.new.resize (-3) (-3) 3 3⟩
  let t1 ← corner m.edges es 0 1 0 0 t0
  let t2 ← corner m.edges es 1 2 1 0 t1
  let t3 ← corner m.edges es 2 3 1 1 t2
  corner m.edges es 3 0 0 1 t3

/-- `ComputeLocalNodeMapping`, `Mesh2DToCurvilinear.cpp:144-181`: entry `(a, b)` is the last corner with `i` larger by `a` and `j` larger
by `b` than the smallest; an entry for which there is none has no value. -/
def localMapping (t : Front) (ns : List Nat) : Res (Int → Int → Option Nat) := do
  let n0 ← vget ns 0
  let n1 ← vget ns 1
  let n2 ← vget ns 2
  let n3 ← vget ns 3
  let i0 ← vget t.i n0
  let i1 ← vget t.i n1
  let i2 ← vget t.i n2
  let i3 ← vget t.i n3
  let j0 ← vget t.j n0
  let j1 ← vget t.j n1
  let j2 ← vget t.j n2
  let j3 ← vget t.j n3
  let minI := min (min (min i0 i1) i2) i3
  let minJ := min (min (min j0 j1) j2) j3
  .ok (fun a b =>
    if i3 = minI + a ∧ j3 = minJ + b then some n3
    else if i2 = minI + a ∧ j2 = minJ + b then some n2
    else if i1 = minI + a ∧ j1 = minJ + b then some n1
    else if i0 = minI + a ∧ j0 = minJ + b then some n0
    else none)

/-- Reading a value that may not have been given. -/
def value (x : Option Nat) : Res Nat :=
  match x with
  | some n => .ok n
  | none => .ub

/-- `m_nodeFrom`, `Mesh2DToCurvilinear.hpp:200-203`. -/
def nodeFrom : Nat → Int × Int
  | 0 => (0, 0)
  | 1 => (0, 0)
  | 2 => (1, 0)
  | _ => (1, 1)

/-- `m_nodeTo`, `Mesh2DToCurvilinear.hpp:205-208`. -/
def nodeTo : Nat → Int × Int
  | 0 => (0, 1)
  | 1 => (1, 0)
  | 2 => (1, 1)
  | _ => (0, 1)

/-- `m_directionsDeltas`, `Mesh2DToCurvilinear.hpp:210-213`. -/
def delta : Nat → Int × Int
  | 0 => (-1, 0)
  | 1 => (0, -1)
  | 2 => (1, 0)
  | _ => (0, 1)

/-- `GetNumFaceEdges(face) == geometric::numNodesInQuadrilateral`, `Mesh.hpp:166`. -/
def isQuad (s : State) (f : Nat) : Res Bool := do
  let ns ← vget s.facesNodes f
  .ok (decide (ns.length = 4))

/-- `Mesh2DToCurvilinear.cpp:205-215`: the face on the other side of the edge, if it is a quadrilateral not visited yet. -/
def otherFace (s : State) (face : Nat) (visited : List Bool) (e : Nat) : Res (Option Nat) := do
  let p ← vget s.edgesFaces e
  let g := if face = p.1 then p.2 else p.1
  let v ← vget visited g
  if v then .ok none
  else do
    let q ← isQuad s g
    if q then .ok (some g) else .ok none

/-- `Mesh2DToCurvilinear.cpp:194-215`. -/
def acrossEdge (s : State) (face : Nat) (visited : List Bool) (e : Nat) : Res (Option Nat) :=
  if e = missing then .ok none
  else do
    let c ← vget s.numFaces e
    if c < 2 then .ok none else otherFace s face visited e

/-- `Mesh2DToCurvilinear.cpp:217-225`: the place of the edge among the sides; 0 if it is not there. -/
def placeOf (es : List Nat) (e : Nat) : Nat := if es.idxOf e < 4 then es.idxOf e else 0

/-- A node and the place it would get: `i`, `j`. -/
abbrev Candidate := Nat × Int × Int

/-- `Mesh2DToCurvilinear.cpp:228-232` and `236-240`: the end of the side `k` of the new face that is not on the edge `e`. -/
def candidate (edges : List Edge) (es : List Nat) (e k d : Nat) (t : Front) : Res Candidate := do
  let e' ← vget es k
  let c ← findCommonNode edges e e'
  let p ← (if e' < edges.length then vget edges e' else .throw)
  let i ← vget t.i c
  let j ← vget t.j c
  .ok (otherNode p c, i + (delta d).1, j + (delta d).2)

/-- One half of `invalid`, `Mesh2DToCurvilinear.cpp:242-245`: the node has another place already. -/
def elsewhere (t : Front) (x : Candidate) : Res Bool := do
  let i ← vget t.i x.1
  let j ← vget t.j x.1
  .ok ((decide (i ≠ noIndex) && decide (i ≠ x.2.1)) || (decide (j ≠ noIndex) && decide (j ≠ x.2.2)))

/-- `doCheck`, `Mesh2DToCurvilinear.cpp:308-313`: a quadrilateral on either side. -/
def quadBeside (s : State) (e : Nat) : Res Bool := do
  let p ← vget s.edgesFaces e
  let a ← isQuad s p.1
  let c ← vget s.numFaces e
  if c = 2 ∧ a = false then isQuad s p.2 else .ok a

/-- The loop of `CheckGridLine`, `Mesh2DToCurvilinear.cpp:302-322`, over the edges of the candidate node. -/
def gridLine (edges : List Edge) (s : State) (w x : Nat) : List Nat → Res Bool
  | [] => .ok false
  | e :: es => do
    let p ← (if e < edges.length then vget edges e else .throw)
    let q ← quadBeside s e
    if q = true ∧ otherNode p x = w then .ok true else gridLine edges s w x es

/-- `Mesh2DToCurvilinear.cpp:277-295`: the nodes at the places beside the candidate are joined to it. -/
def linesOk (m : Mesh P) (s : State) (map : Mapping) (x : Nat) : List (Int × Int) → Res Bool
  | [] => .ok true
  | (j, i) :: ps => do
    let v ← map.get j i
    match v with
    | none => linesOk m s map x ps
    | some w => do
      let l ← vget m.nodesEdges x
      let b ← gridLine m.edges s w x l
      if b then linesOk m s map x ps else .ok false

/-- The places beside a place, in the order they are looked at, `Mesh2DToCurvilinear.cpp:271-274, 277-292`. -/
def beside (i j : Int) : List (Int × Int) := [(j, i - 1), (j, i + 1), (j - 1, i), (j + 1, i)]

/-- `IsConnectionValid`, `Mesh2DToCurvilinear.cpp:269-298`; the matrix has grown afterwards. -/
def connectionValid (m : Mesh P) (s : State) (t : Front) (x : Candidate) : Res (Bool × Front) := do
  let map := t.map.resize (x.2.2 - 1) (x.2.1 - 1) (x.2.2 + 1) (x.2.1 + 1)
  let b ← linesOk m s map x.1 (beside x.2.1 x.2.2)
  .ok (b, { t with map := map })

/-- `Mesh2DToCurvilinear.cpp:260-265`. -/
def settle (x y : Candidate) (t : Front) : Res Front := do
  let t1 ← t.index x.1 x.2.1 x.2.2
  let t2 ← t1.index y.1 y.2.1 y.2.2
  let t3 ← t2.enter x.1 x.2.1 x.2.2
  t3.enter y.1 y.2.1 y.2.2

/-- `Mesh2DToCurvilinear.cpp:255-266`. -/
def trySecond (m : Mesh P) (s : State) (g : Nat) (x y : Candidate) (t : Front) : Res (Nat × Front) := do
  let r ← connectionValid m s t y
  if r.1 then do
    let t' ← settle x y r.2
    .ok (g, t')
  else .ok (missing, r.2)

/-- `Mesh2DToCurvilinear.cpp:251-266`. -/
def tryFirst (m : Mesh P) (s : State) (g : Nat) (x y : Candidate) (t : Front) : Res (Nat × Front) := do
  let r ← connectionValid m s t x
  if r.1 then trySecond m s g x y r.2 else .ok (missing, r.2)

/-- `Mesh2DToCurvilinear.cpp:242-266`. -/
def tryNodes (m : Mesh P) (s : State) (g : Nat) (x y : Candidate) (t : Front) : Res (Nat × Front) := do
  let a ← elsewhere t x
  let b ← elsewhere t y
  if a || b then .ok (missing, t) else tryFirst m s g x y t

/-- `Mesh2DToCurvilinear.cpp:217-266`. -/
def tryFace (m : Mesh P) (s : State) (e d g : Nat) (t : Front) : Res (Nat × Front) := do
  let es ← vget s.facesEdges g
  let k := placeOf es e
  let x ← candidate m.edges es e (if k + 1 = 4 then 0 else k + 1) d t
  let y ← candidate m.edges es e (if k = 0 then 3 else k - 1) d t
  tryNodes m s g x y t

/-- `ComputeNeighbouringFaceNodes`, `Mesh2DToCurvilinear.cpp:183-267`. -/
def neighbour (m : Mesh P) (s : State) (face : Nat) (loc : Int → Int → Option Nat) (d : Nat) (visited : List Bool) (t : Front) :
    Res (Nat × Front) := do
  let a ← value (loc (nodeFrom d).1 (nodeFrom d).2)
  let b ← value (loc (nodeTo d).1 (nodeTo d).2)
  let e ← findEdge m a b
  let r ← acrossEdge s face visited e
  match r with
  | none => .ok (missing, t)
  | some g => tryFace m s e d g t

/-- The queue and the places. -/
abbrev Work := List Nat × Front

/-- `Mesh2DToCurvilinear.cpp:134-138`. -/
def spread (m : Mesh P) (s : State) (face : Nat) (loc : Int → Int → Option Nat) (visited : List Bool) (d : Nat) (w : Work) : Res Work := do
  let r ← neighbour m s face loc d visited w.2
  .ok (if r.1 ≠ missing then w.1 ++ [r.1] else w.1, r.2)

/-- `Mesh2DToCurvilinear.cpp:126-139`. -/
def visit (m : Mesh P) (s : State) (face : Nat) (visited : List Bool) (q : List Nat) (t : Front) : Res Work := do
  let ns ← vget s.facesNodes face
  if ns.length ≠ 4 then .ok (q, t)
  else do
    let loc ← localMapping t ns
    forRange 0 4 (spread m s face loc visited) (q, t)

/-- The loop `Mesh2DToCurvilinear.cpp:115-140`, `k` rounds at most; the theorems show that the rounds suffice. -/
def rounds (m : Mesh P) (s : State) : Nat → List Nat → List Bool → Front → Res Front
  | _, [], _, t => .ok t
  | 0, _ :: _, _, _ => .ub
  | k + 1, f :: q, visited, t => do
    let v ← vget visited f
    if v then rounds m s k q visited t
    else do
      let w ← visit m s f (visited.set f true) q t
      rounds m s k w.1 (visited.set f true) w.2

/-- A number of rounds that suffices: every face puts at most four faces in the queue, once. -/
def enough (s : State) : Nat := 5 * s.facesNodes.length + 1

/-! ## The result -/

/-- `std::ranges::minmax_element` of the indices that are not missing, `Mesh2DToCurvilinear.cpp:327-333`. -/
def extent (l : List Int) : Option (Int × Int) :=
  match l.filter (fun x => decide (x ≠ noIndex)) with
  | [] => none
  | a :: r => some (r.foldl min a, r.foldl max a)

/-- The loop body, `Mesh2DToCurvilinear.cpp:342-347`. -/
def copyNode (nodes : List (Option P)) (t : Front) (ei ej : Int × Int) (n : Nat) (c : Nat → Nat → Option P) : Res (Nat → Nat → Option P) := do
  let j ← vget t.j n
  let i ← vget t.i n
  if j ≠ noIndex ∧ i ≠ noIndex then
    if ej.1 ≤ j ∧ j ≤ ej.2 ∧ ei.1 ≤ i ∧ i ≤ ei.2 then do
      let p ← (if n < nodes.length then vget nodes n else .throw)
      .ok (upd c (j - ej.1).toNat (i - ei.1).toNat p)
    else .ub
  else .ok c

/-- `ComputeCurvilinearMatrix`, `Mesh2DToCurvilinear.cpp:325-351`: rows, columns and nodes; a new matrix has invalid nodes (`Point.hpp:47-51`). -/
def matrix (m : Mesh P) (t : Front) : Res (Nat × Nat × (Nat → Nat → Option P)) :=
  match extent t.i, extent t.j with
  | some ei, some ej => do
    let c ← forRange 0 m.nodes.length (copyNode m.nodes t ei ej) (fun _ _ => none)
    .ok ((ej.2 - ej.1 + 1).toNat, (ei.2 - ei.1 + 1).toNat, c)
  | _, _ => .ub

/-- `Mesh2DToCurvilinear.cpp:76-141`: from the face `f` on. -/
def growFrom (m : Mesh P) (s : State) (f : Nat) : Res (Grid (Option P)) := do
  let t ← seed m s f
  let t' ← rounds m s (enough s) [f] (List.replicate s.facesNodes.length false) t
  let r ← matrix m t'
  setGridNodes ⟨0, 0, fun _ _ => none, 0, 0, 0, 0⟩ r.1 r.2.1 r.2.2

/-- The corners of a face and the first one again, `Mesh2DToCurvilinear.cpp:61-68`. -/
def outlineOf (m : Mesh P) (ns : List Nat) : Res (List (Option P)) := do
  let n0 ← vget ns 0
  let n1 ← vget ns 1
  let n2 ← vget ns 2
  let n3 ← vget ns 3
  let p0 ← vget m.nodes n0
  let p1 ← vget m.nodes n1
  let p2 ← vget m.nodes n2
  let p3 ← vget m.nodes n3
  .ok [p0, p1, p2, p3, p0]

/-- `Compute`, `Mesh2DToCurvilinear.cpp:50-142`; `nearest` is the outcome of the search of line 54, `contains` the test of line 71. -/
def compute (nearest : State → Res Nat) (contains : List (Option P) → Bool) (m : Mesh P) (s : State) : Res (Grid (Option P)) := do
  let f ← nearest s
  let ns ← vget s.facesNodes f
  if ns.length ≠ 4 then .throw
  else do
    let ps ← outlineOf m ns
    if contains ps then growFrom m s f else .throw

/-- `mkernel_mesh2d_convert_to_curvilinear`, `MeshKernel.cpp:1120-1142`, with the constructor, `Mesh2DToCurvilinear.cpp:35-48`.  Afterwards the
mesh is empty.  `order` and `clockwise` belong to the administration. -/
def convert (order : Nat → List Nat → List Nat) (clockwise : List (Option P) → List Nat → Bool) (nearest : State → Res Nat)
    (contains : List (Option P) → Bool) (m : Mesh P) : Res (Grid (Option P) × Mesh P) :=
  if m.nodes.length = 0 then .throw
  else do
    let r ← doAdministration order clockwise m
    if r.2.facesNodes.length = 0 then .throw
    else do
      let g ← compute nearest contains r.1 r.2
      .ok (g, ⟨[], [], [], []⟩)

end Verif.ToCurvi
