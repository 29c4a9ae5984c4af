import Verif.Faces.OrderModel
/-!
# Model: a mesh handed in together with its faces

Models `FindFacesGivenFaceNodesMapping` in `libs/MeshKernel/src/Mesh2D.cpp`, reached from `mkernel_mesh2d_set` and
`mkernel_mesh2d_add`, and the conversion of the face arrays.  Areas, centres and circumcentres are left out, but not the
accesses to the lists made to compute them.
-/
namespace Verif.Faces
open Verif.Mesh
variable {P : Type}

/-- The inner loop of `ConvertToFaceNodesVector`, `libs/MeshKernel/include/MeshKernel/Entities.hpp:213-219`: the next `n` entries from
`index` on. -/
def takeEntries (faceNodes : List Nat) : Nat → Nat → Res (List Nat)
  | 0, _ => .ok []
  | n + 1, index => do
    let a ← vget faceNodes index
    let l ← takeEntries faceNodes n (index + 1)
    .ok (a :: l)

/-- `ConvertToFaceNodesVector`, `libs/MeshKernel/include/MeshKernel/Entities.hpp:202-222`, from `index` on. -/
def facesFromArrays (faceNodes : List Nat) : List Nat → Nat → Res (List (List Nat))
  | [], _ => .ok []
  | n :: rest, index => do
    let l ← takeEntries faceNodes n index
    let r ← facesFromArrays faceNodes rest (index + n)
    .ok (l :: r)

/-- What the loop `Mesh2D.cpp:563-589` does at a node. -/
inductive Step where
  | go (e other : Nat)
  | close (e : Nat)
  | stop
  deriving DecidableEq, Repr

/-- The loop `Mesh2D.cpp:563-589` over the edges of `node`, up to the next `continue` or `break`; `es` and `seen` are `local_edges` and
`local_node_indices`. -/
def scan (edges : List Edge) (ns : List Nat) (first node : Nat) (es seen : List Nat) : List Nat → Res Step
  | [] => .ok .stop
  | e :: l => do
    let p ← vget edges e
    if otherNode p node ∈ ns ∧ e ∉ es ∧ otherNode p node ∉ seen then .ok (.go e (otherNode p node))
    else if otherNode p node = first ∧ e ∉ es then .ok (.close e)
    else scan edges ns first node es seen l

/-- The loop `Mesh2D.cpp:563-589`; the result is `local_edges`.  Each `continue` adds a node of the face to `seen`, so there are fewer of them
than the face has nodes; the first number bounds what is left. -/
def walk (edges : List Edge) (adj : List (List Nat)) (ns : List Nat) (first : Nat) : Nat → Nat → List Nat → List Nat → Res (List Nat)
  | 0, _, es, _ => .ok es
  | k + 1, node, es, seen => do
    let l ← vget adj node
    let r ← scan edges ns first node es seen l
    match r with
    | .go e other => walk edges adj ns first k other (es ++ [e]) (seen ++ [other])
    | .close e => .ok (es ++ [e])
    | .stop => .ok es

/-- One round of the loop `Mesh2D.cpp:592-600`. -/
def markGiven (f e : Nat) (s : State) : Res State := do
  let c ← vget s.numFaces e
  if c > 2 then .throw
  else markEdge f e s

/-- The loop `Mesh2D.cpp:592-600`. -/
def markAllGiven (f : Nat) : List Nat → State → Res State
  | [], s => .ok s
  | e :: es, s => do
    let s1 ← markGiven f e s
    markAllGiven f es s1

/-- One round of the loop `Mesh2D.cpp:553-608`. -/
def givenFace (edges : List Edge) (adj : List (List Nat)) (f : Nat) (s : State) : Res State := do
  let ns ← vget s.facesNodes f
  let first ← vget ns 0
  let es ← walk edges adj ns first ns.length first [] [first]
  markAllGiven f es { s with facesEdges := s.facesEdges ++ [es] }

/-- `FindFacesGivenFaceNodesMapping`, `Mesh2D.cpp:544-609`. -/
def findGivenFaces (edges : List Edge) (adj : List (List Nat)) (faces : List (List Nat)) (s : State) : Res State :=
  forRange 0 faces.length (givenFace edges adj) { s with facesNodes := faces }

/-- The accesses to the nodes and edges of face `f` in `ComputeFaceClosedPolygon`, `Mesh2D.cpp:785-788`, and in `Mesh2D.cpp:636-642`:
`m_facesEdges[f][n]` for each node `n` of the face. -/
def useFace (numNodes : Nat) (s : State) (f : Nat) : Res Unit := do
  let ns ← vget s.facesNodes f
  let es ← vget s.facesEdges f
  if ns.any (fun n => decide (numNodes ≤ n)) ∨ es.length < ns.length then .ub
  else .ok ()

/-- `ComputeCircumcentersMassCentersAndFaceAreas`, `Mesh2D.cpp:622-655`: the accesses only. -/
def useFaces (numNodes : Nat) (s : State) : Res Unit :=
  forRange 0 s.facesNodes.length (fun f _ => useFace numNodes s f) ()

/-- The constructor of a mesh with faces, `Mesh2D.cpp:61-69, 170-186` and `Mesh.cpp:55-66`. -/
def meshWithFaces (order : List (Option P) → List Edge → Nat → List Nat → List Nat) (m : Mesh P) (faces : List (List Nat)) :
    Res (Mesh P × State) := do
  let m0 ← deleteInvalid m
  let m1 ← administrate (order m0.nodes m0.edges) m0
  let s ← findGivenFaces m1.edges m1.nodesEdges faces (initial m1.edges.length)
  useFaces m1.nodes.length s
  .ok (m1, s)

/-- The face arrays written by `SetMesh2dApiData`, `libs/MeshKernelApi/include/MeshKernelApi/Utils.hpp:398-410`: `nodes_per_face`,
`face_nodes` and `face_edges`. -/
def faceArrays : List (List Nat) → List (List Nat) → Res (List Nat × List Nat × List Nat)
  | [], _ => .ok ([], [], [])
  | _ :: _, [] => .ub
  | ns :: fs, es :: gs => do
    let l ← takeEntries es ns.length 0
    let r ← faceArrays fs gs
    .ok (ns.length :: r.1, ns ++ r.2.1, l ++ r.2.2)

end Verif.Faces
