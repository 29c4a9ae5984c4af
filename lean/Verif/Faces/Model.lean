import Verif.Mesh.Model
import Verif.Loop
import Mathlib.Data.List.Sort
/-!
# Model: the faces of a mesh

Models the search for the faces in `libs/MeshKernel/src/Mesh2D.cpp`.  `adj` is `m_nodesEdges`, each list as long as
`m_nodesNumEdges` says; `clockwise` tells if `Polygon::FaceAreaAndCenterOfMass` reports the nodes as clockwise (modelled
in `Verif.Polygons.AreaModel`).  Areas and centres of the faces are left out.
-/
namespace Verif.Faces
open Verif.Mesh

/-- `m_edgesNumFaces`, `m_edgesFaces`, `m_facesNodes` and `m_facesEdges`. -/
structure State where
  numFaces : List Nat
  edgesFaces : List (Nat × Nat)
  facesNodes : List (List Nat)
  facesEdges : List (List Nat)
deriving DecidableEq, Repr

/-- `ResizeAndInitializeFaceVectors`, `Mesh2D.cpp:376-399`. -/
def initial (numEdges : Nat) : State := ⟨List.replicate numEdges 0, List.replicate numEdges (missing, missing), [], []⟩

/-- Two neighbours in a list are equal, `Mesh2D.cpp:313-319, 364-370`. -/
def neighboursEqual : List Nat → Bool
  | a :: b :: l => decide (b = a) || neighboursEqual (b :: l)
  | _ => false

/-- `HasDuplicateNodes`, `Mesh2D.cpp:288-323`; the list has `k` entries. -/
def hasDuplicates (k : Nat) (l : List Nat) : Bool :=
  let n := fun i => l.getD i 0
  if k = 3 then n 0 == n 1 || n 0 == n 2 || n 1 == n 2
  else if k = 4 then n 0 == n 1 || n 0 == n 2 || n 0 == n 3 || n 1 == n 2 || n 1 == n 3 || n 2 == n 3
  else neighboursEqual (l.insertionSort (· ≤ ·))

/-- `m_edgesFaces[edge][0]` -/
def firstFace (s : State) (e : Nat) : Nat := (s.edgesFaces.getD e (missing, missing)).1

/-- `HasDuplicateEdgeFaces`, `Mesh2D.cpp:325-374`: the same tests as `HasDuplicateNodes`, on the first faces of the edges. -/
def hasDuplicateEdgeFaces (k : Nat) (es : List Nat) (s : State) : Bool := hasDuplicates k (es.map (firstFace s))

/-- Write the new face `f` at place `i` of an edge. -/
def setSlot (p : Nat × Nat) (i f : Nat) : Res (Nat × Nat) :=
  match i with
  | 0 => .ok (f, p.2)
  | 1 => .ok (p.1, f)
  | _ => .ub

/-- One round of the loop `Mesh2D.cpp:472-478`. -/
def markEdge (f e : Nat) (s : State) : Res State := do
  let c ← vget s.numFaces e
  let p ← vget s.edgesFaces e
  let q ← setSlot p c f
  .ok { s with numFaces := s.numFaces.set e (c + 1), edgesFaces := s.edgesFaces.set e q }

/-- The loop `Mesh2D.cpp:472-478`. -/
def markEdges (f : Nat) : List Nat → State → Res State
  | [], s => .ok s
  | e :: es, s => do
    let s1 ← markEdge f e s
    markEdges f es s1

/-- `Mesh2D.cpp:480-485`, after the loop. -/
def storeFace (ns es : List Nat) (s : State) : Res State := do
  let s1 ← markEdges s.facesNodes.length es s
  .ok { s1 with facesNodes := s1.facesNodes ++ [ns], facesEdges := s1.facesEdges ++ [es] }

/-- At least one edge has no face yet, `Mesh2D.cpp:443-452`. -/
def oneEdgeHasNoFace (es : List Nat) (s : State) : Bool := es.any (fun e => s.numFaces.getD e 0 == 0)

/-- The nodes and edges close up, `Mesh2D.cpp:434-488`. -/
def closeFace (clockwise : List Nat → Bool) (k : Nat) (ns es : List Nat) (s : State) : Res State :=
  if hasDuplicates k ns then .ok s
  else if !oneEdgeHasNoFace es s && hasDuplicateEdgeFaces k es s then .ok s
  else if clockwise ns then .ok s
  else storeFace ns es s

/-- Place of the edge to go on with among the edges of a node, `Mesh2D.cpp:490-511`: the one before `prev` in the
list, cyclically.  For an empty list the index wraps around and the access of line 513 is out of range. -/
def previousPlace (l : List Nat) (prev : Nat) : Nat :=
  let i := (l.idxOf? prev).getD 0
  if i = 0 then l.length - 1 else i - 1

/-- `FindFacesRecursive`, `Mesh2D.cpp:401-515`.  The first number is `numClosingEdges - nodes.size()`. -/
def findFace (edges : List Edge) (adj : List (List Nat)) (clockwise : List Nat → Bool) (k start : Nat) :
    Nat → Nat → Nat → List Nat → List Nat → State → Res State
  | 0, _, _, _, _, s => .ok s
  | r + 1, node, prev, ns, es, s => do
    let e ← vget edges prev
    if e.1 = missing ∨ e.2 = missing then .throw
    else do
      let c ← vget s.numFaces prev
      if c ≥ 2 then .ok s
      else if otherNode e node = start ∧ (ns ++ [node]).length = k then closeFace clockwise k (ns ++ [node]) (es ++ [prev]) s
      else do
        let l ← vget adj (otherNode e node)
        let next ← vget l (previousPlace l prev)
        findFace edges adj clockwise k start r (otherNode e node) next (ns ++ [node]) (es ++ [prev]) s

/-- The innermost loop of `FindFaces`, `Mesh2D.cpp:534-539`, over the edges of node `n`. -/
def facesAtNode (edges : List Edge) (adj : List (List Nat)) (clockwise : List Nat → Bool) (k n : Nat) :
    List Nat → State → Res State
  | [], s => .ok s
  | e :: es, s => do
    let s1 ← findFace edges adj clockwise k n k n e [] [] s
    facesAtNode edges adj clockwise k n es s1

/-- One round of the loop over the nodes, `Mesh2D.cpp:527-540`. -/
def facesFrom (edges : List Edge) (adj : List (List Nat)) (clockwise : List Nat → Bool) (validNode : Nat → Bool) (k n : Nat)
    (s : State) : Res State :=
  if !validNode n then .ok s
  else do
    let l ← vget adj n
    facesAtNode edges adj clockwise k n l s

/-- `FindFaces`, `Mesh2D.cpp:517-542`. -/
def findFaces (edges : List Edge) (adj : List (List Nat)) (clockwise : List Nat → Bool) (validNode : Nat → Bool) (numNodes : Nat)
    (s : State) : Res State :=
  forRange 3 7 (fun k => forRange 0 numNodes (facesFrom edges adj clockwise validNode k)) s

/-- `DoAdministration`, `Mesh2D.cpp:153-168`, up to the search for the faces. -/
def doAdministration {P : Type} (order : Nat → List Nat → List Nat) (clockwise : List (Option P) → List Nat → Bool) (m : Mesh P) :
    Res (Mesh P × State) := do
  let m1 ← administrate order m
  let s ← findFaces m1.edges m1.nodesEdges (clockwise m1.nodes) (validNode m1.nodes) m1.nodes.length (initial m1.edges.length)
  .ok (m1, s)

end Verif.Faces
