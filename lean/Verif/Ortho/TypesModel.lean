import Verif.Mesh.Model
import Verif.Loop
/-!
# Model: the types of the nodes of a mesh

Models `Mesh2D::ClassifyNodes`, `libs/MeshKernel/src/Mesh2D.cpp`.  `adj` is `m_nodesEdges`, each list as long as `m_nodesNumEdges` says;
`numFaces` is `m_edgesNumFaces`.
-/
namespace Verif.Ortho
open Verif.Mesh

/-- Add one to the types of both ends of an edge, `Mesh2D.cpp:683-687`. -/
def bump (p : Edge) (types : List Int) : Res (List Int) := do
  let a ← vget types p.1
  let types1 ← vset types p.1 (a + 1)
  let b ← vget types1 p.2
  vset types1 p.2 (b + 1)

/-- Set the types of both ends of an edge to -1, `Mesh2D.cpp:678-682`. -/
def hang (p : Edge) (types : List Int) : Res (List Int) := do
  let types1 ← vset types p.1 (-1)
  vset types1 p.2 (-1)

/-- One round of the loop `Mesh2D.cpp:663-688`. -/
def classifyEdge (edges : List Edge) (numFaces : List Nat) (e : Nat) (types : List Int) : Res (List Int) := do
  let p ← vget edges e
  if p.1 = missing ∨ p.2 = missing then .ok types
  else do
    let a ← vget types p.1
    let b ← vget types p.2
    if a = -1 ∨ b = -1 then .ok types
    else do
      let c ← vget numFaces e
      if c = 0 then hang p types
      else if c = 1 then bump p types
      else .ok types

/-- The loop `Mesh2D.cpp:703-719`: `firstNode` and `secondNode`.  Note the comparison of `firstNode` with 0. -/
def boundaryEnds (edges : List Edge) (numFaces : List Nat) (n : Nat) : List Nat → Nat → Nat → Res (Nat × Nat)
  | [], first, second => .ok (first, second)
  | e :: l, first, second => do
    let c ← vget numFaces e
    if c ≠ 1 then boundaryEnds edges numFaces n l first second
    else do
      let p ← vget edges e
      if first = 0 then boundaryEnds edges numFaces n l (otherNode p n) second
      else .ok (first, otherNode p n)

/-- `Mesh2D.cpp:692-746`; `sharp n a b` tells if the cosine of the angle at `n` between `a` and `b` is above -0.25
(`Mesh2D.cpp:725-729`). -/
def refineType (edges : List Edge) (numFaces : List Nat) (sharp : Nat → Nat → Nat → Bool) (n : Nat) (l : List Nat) (t : Int) : Res Int :=
  if t = 1 ∨ t = 2 then
    if l.length = 2 then .ok 3
    else do
      let r ← boundaryEnds edges numFaces n l missing missing
      if r.1 ≠ missing ∧ r.2 ≠ missing ∧ sharp n r.1 r.2 = true then .ok 3 else .ok 2
  else if t > 2 then .ok 3
  else if t ≠ -1 then .ok 1
  else .ok (-1)

/-- One round of the loop `Mesh2D.cpp:690-752`. -/
def classifyNode (edges : List Edge) (adj : List (List Nat)) (numFaces : List Nat) (sharp : Nat → Nat → Nat → Bool) (n : Nat)
    (types : List Int) : Res (List Int) := do
  let t ← vget types n
  let l ← vget adj n
  let t1 ← refineType edges numFaces sharp n l t
  vset types n (if l.length < 2 then -1 else t1)

/-- `ClassifyNodes`, `Mesh2D.cpp:658-753`. -/
def classify (edges : List Edge) (adj : List (List Nat)) (numFaces : List Nat) (sharp : Nat → Nat → Nat → Bool) (numNodes : Nat) :
    Res (List Int) := do
  let types ← forRange 0 edges.length (classifyEdge edges numFaces) (List.replicate numNodes 0)
  forRange 0 numNodes (classifyNode edges adj numFaces sharp) types

end Verif.Ortho
