import Verif.Basic

/-!
# Which elements Casulli derefinement deletes

`mkernel_mesh2d_casulli_derefinement_elements` and `…_on_polygon` (`MeshKernel.cpp:2996-3029`):
`ElementsToDelete` with the front that marks the elements (`CasulliDeRefinement.cpp:192-407`,
`:968-1013`).  Elements are numbers; which elements share a side or a corner with an element comes from
the tables of the mesh and is a parameter, as are the types of the nodes.
-/
namespace Verif.Derefine

/-- `ElementType` (`CasulliDeRefinement.hpp:71-79`). -/
inductive Mark where
  | nodeFirst
  | edgeFirst
  | cell
  | nodeAfter
  | edgeAfter
  | unassigned
  deriving DecidableEq, Repr

/-- What is needed of the mesh. -/
structure Cells where
  /-- number of elements -/
  num : Nat
  /-- the element has four nodes -/
  quad : Nat → Bool
  /-- `FindDirectlyConnectedCells` (`CasulliDeRefinement.cpp:66-84`): elements beyond its sides -/
  direct : Nat → List Nat
  /-- `FindIndirectlyConnectedCells` (`CasulliDeRefinement.cpp:86-117`): the other elements at its
  corners -/
  indirect : Nat → List Nat
  /-- the types of its nodes, zero outside the polygon (`CasulliDeRefinement.cpp:968-981`) -/
  types : Nat → List Int
  /-- the elements at those edges of the boundary of which both nodes have type two, in the order of the
  edges (`CasulliDeRefinement.cpp:215-227`) -/
  border : List Nat

/-- `ElementIsSeed` (`CasulliDeRefinement.cpp:192-208`). -/
def isSeed (c : Cells) (e : Nat) : Bool := (c.types e).all fun t => t != 0

/-- `FindElementSeedIndex` (`CasulliDeRefinement.cpp:210-269`). -/
def seed (c : Cells) : Nat :=
  match c.border.find? fun e => c.quad e && isSeed c e with
  | some e => e
  | none => ((List.range c.num).find? fun e => c.quad e && isSeed c e).getD 0

/-- The marks and the next front. -/
abbrev State := (Nat → Mark) × List Nat

/-- One entry of the marks. -/
def put (f : Nat → Mark) (i : Nat) (m : Mark) : Nat → Mark := fun j => if j = i then m else f j

/-- A loop over neighbours that marks those it may mark and puts them into the next front
(`CasulliDeRefinement.cpp:326-341`, `:363-379`, `:381-397`, `:271-287`). -/
def spread (c : Cells) (front : List Nat) (can : Mark → Bool) (new : Mark) : List Nat → State → State
  | [], s => s
  | j :: js, s =>
    if c.quad j && can (s.1 j) then
      spread c front can new js (put s.1 j new, if j ∈ front then s.2 else s.2 ++ [j])
    else spread c front can new js s

/-- The loop over the elements at the corners of a node element (`CasulliDeRefinement.cpp:343-356`). -/
def cover (c : Cells) : List Nat → (Nat → Mark) → Nat → Mark
  | [], f => f
  | j :: js, f => cover c js (if c.quad j then put f j .cell else f)

/-- An element of the front (`CasulliDeRefinement.cpp:316-401`). -/
def visit (c : Cells) (front : List Nat) (s : State) (e : Nat) : State :=
  match s.1 e with
  | .nodeFirst =>
    let s1 := spread c front (fun m => m == .cell || m == .unassigned) .edgeFirst (c.direct e) s
    (put (cover c (c.indirect e) s1.1) e .nodeAfter, s1.2)
  | .edgeFirst =>
    let s1 := spread c front (fun m => m == .unassigned) .nodeFirst (c.direct e) s
    let s2 := spread c front (fun m => m == .unassigned) .edgeFirst (c.indirect e) s1
    (put s2.1 e .edgeAfter, s2.2)
  | _ => s

/-- The rounds (`CasulliDeRefinement.cpp:311-404`). -/
def rounds (c : Cells) : Nat → (Nat → Mark) → List Nat → Nat → Mark
  | 0, f, _ => f
  | k + 1, f, front =>
    if front = [] then f
    else
      let s := front.foldl (visit c front) (f, [])
      rounds c k s.1 s.2

/-- `InitialiseElementType` (`CasulliDeRefinement.cpp:289-407`), with at most a thousand rounds
(`CasulliDeRefinement.hpp:61`).  Without elements the mark of the first is written out of bounds. -/
def marks (c : Cells) : Res (Nat → Mark) :=
  if c.num = 0 then .ub
  else .ok (rounds c 1000 (put (fun _ => .unassigned) (seed c) .nodeFirst) [seed c])

/-- `ElementsToDelete` (`CasulliDeRefinement.cpp:983-1013`). -/
def elements (c : Cells) : Res (List Nat) :=
  (marks c).bind fun f => .ok ((List.range c.num).filter fun e =>
    f e == .nodeAfter && (c.types e).any fun t => decide (0 < t))

end Verif.Derefine
