import Verif.Basic
import Mathlib.Algebra.Order.Field.Basic
/-!
# Model: moving a node of a mesh

Models `Mesh::MoveNode` (`Mesh.cpp:712-756`) and the undo action it returns
(`NodeTranslationAction.cpp`).  Coordinates are numbers of an ordered field, or not a number; nodes
are raw coordinates, as in `m_nodes`: a deleted node is one with a coordinate -999.

The weight `0.5 * (1 + cos(sqrt(r) * π))` of `Mesh.cpp:739` is a parameter `w` of the ratio `r`; it is
instantiated in `Verif.Move.Props` by that function of the real numbers.
-/
namespace Verif.Move
variable {K : Type} [Field K] [LinearOrder K]

/-- A point; `nan` when a coordinate is not a number. -/
inductive Pos (K : Type) where
  | at (x y : K)
  | nan
  deriving DecidableEq, Repr

/-- `GetDx` and `GetDy`, Cartesian: `Operations.cpp:373-427`.  `none` is not a number. -/
def cartesian : Pos K → Pos K → Option (K × K)
  | .at a b, .at c d => some (c - a, d - b)
  | _, _ => none

/-- `GetDx` and `GetDy`, spherical, without the treatment of poles and of the date line:
`Operations.cpp:399-405`, `421-424`.  `r` is the radius of the Earth times `degToRad`, `cosPhi` the cosine of the
mean latitude.  Latitudes are `y`. -/
def spherical (r : K) (cosPhi : K → K → K) : Pos K → Pos K → Option (K × K)
  | .at a b, .at c d => some (r * cosPhi b d * (c - a), r * (d - b))
  | _, _ => none

/-- Squared length. -/
def sq (v : K × K) : K := v.1 * v.1 + v.2 * v.2

/-- The factor of `Mesh.cpp:739`: for a ratio `0 * (1 / 0)` it is not a number. -/
def factor (w : K → K) (d D : K) : Option K := if D = 0 then none else some (w (d / D))

/-- `nodeDisplacement.emplace_back(dx * factor, dy * factor)`, `Mesh.cpp:741`. -/
def scale (v : K × K) : Option K → Option (K × K)
  | some f => some (v.1 * f, v.2 * f)
  | none => none

/-- One round of the loop `Mesh.cpp:733-743`: a comparison with what is not a number is false. -/
def displacement (w : K → K) (delta : Pos K → Pos K → Option (K × K)) (old : Pos K) (v : K × K) (p : Pos K) :
    Option (Option (K × K)) :=
  match delta p old with
  | none => none
  | some u => if sq u ≤ sq v then some (scale v (factor w (sq u) (sq v))) else none

/-- The loop `Mesh.cpp:731-744`: `movedNodeIndex` and `nodeDisplacement`. -/
def displacements (w : K → K) (delta : Pos K → Pos K → Option (K × K)) (old : Pos K) (v : K × K) :
    Nat → List (Pos K) → List (Nat × Option (K × K))
  | _, [] => []
  | i, p :: ps =>
    match displacement w delta old v p with
    | none => displacements w delta old v (i + 1) ps
    | some d => (i, d) :: displacements w delta old v (i + 1) ps

/-- `Point::operator+=`. -/
def Pos.shift : Pos K → Option (K × K) → Pos K
  | .at x y, some d => .at (x + d.1) (y + d.2)
  | _, _ => .nan

/-- The loop `Mesh.cpp:748-751`. -/
def applyAll : List (Nat × Option (K × K)) → List (Pos K) → Res (List (Pos K))
  | [], ns => .ok ns
  | (i, d) :: r, ns => do
    let p ← vget ns i
    let ns1 ← vset ns i (p.shift d)
    applyAll r ns1

/-- The nodes at the given indices. -/
def pick (ns : List (Pos K)) : List Nat → Res (List (Nat × Pos K))
  | [] => .ok []
  | i :: is => do
    let p ← vget ns i
    let r ← pick ns is
    .ok ((i, p) :: r)

/-- `NodeTranslationAction::Create(mesh, nodeIndices)`, `NodeTranslationAction.cpp:21-49`: all nodes are saved when no
indices are given or when that takes less memory (4 bytes for an index, 16 for a point).  All nodes are saved with
their indices here; the class leaves them out. -/
def saved (ns : List (Pos K)) (moved : List Nat) : Res (List (Nat × Pos K)) :=
  if moved.length > ns.length then .throw
  else if moved = [] ∨ moved.length * 20 > ns.length * 16 then pick ns (List.range ns.length)
  else pick ns moved

/-- `NodeTranslationAction::Swap`, `NodeTranslationAction.cpp:64-74`, the loop. -/
def swapLoop : List (Nat × Pos K) → List (Pos K) → Res (List (Nat × Pos K) × List (Pos K))
  | [], ns => .ok ([], ns)
  | (i, p) :: r, ns => do
    let q ← vget ns i
    let ns1 ← vset ns i p
    let rs ← swapLoop r ns1
    .ok ((i, q) :: rs.1, rs.2)

/-- `NodeTranslationAction::Swap`, `NodeTranslationAction.cpp:56-75`: undo and redo. -/
def swap (s : List (Nat × Pos K)) (ns : List (Pos K)) : Res (List (Nat × Pos K) × List (Pos K)) :=
  if ns.length < s.length then .throw else swapLoop s ns

/-- `MoveNode`, `Mesh.cpp:712-756`: the saved nodes and the new nodes.  When a coordinate of the node or of its new
position is not a number, no comparison succeeds and nothing is moved. -/
def moveNode (w : K → K) (delta : Pos K → Pos K → Option (K × K)) (ns : List (Pos K)) (new : Pos K) (i : Nat) :
    Res (List (Nat × Pos K) × List (Pos K)) :=
  if i ≥ ns.length then .throw
  else do
    let old ← vget ns i
    let moves := match delta old new with
      | none => []
      | some v => displacements w delta old v 0 ns
    let s ← saved ns (moves.map Prod.fst)
    let ns1 ← applyAll moves ns
    .ok (s, ns1)

end Verif.Move
