import Verif.Curvi.Grid
/-!
# Curvilinear grids: removal of nodes that belong to no face

Models `CurvilinearGrid.cpp:328-431`.
-/
namespace Verif.Curvi
variable {P : Type} [PointLike P]

/-- `AreFaceNodesValid`, `CurvilinearGrid.cpp:328-334`. -/
def areFaceNodesValid (g : Grid P) (n m : Nat) : Res Bool := do
  let a ← getNode g n m
  if !valid a then .ok false else do
    let b ← getNode g n (m + 1)
    if !valid b then .ok false else do
      let c ← getNode g (n + 1) m
      if !valid c then .ok false else do
        let d ← getNode g (n + 1) (m + 1)
        .ok (valid d)

/-- Body of the loop in `ComputeGridFacesMask`, `CurvilinearGrid.cpp:380-386`. -/
def markFace (g : Grid P) (n m : Nat) (mask : Grid Bool) : Res (Grid Bool) := do
  let v ← areFaceNodesValid g n m
  if !v then .ok mask else setNode mask n m true

/-- `ComputeGridFacesMask`, `CurvilinearGrid.cpp:370-389`. The mask is accessed with the same offsets and checks
as the node matrix (`IsFaceMaskValid`, `CurvilinearGrid.hpp:219-232`), so it is a grid of Booleans. The second,
unused array of line 374 is left out. -/
def computeGridFacesMask (g : Grid P) : Res (Grid Bool) :=
  forRange 0 (g.numN - 1) (fun n => forRange 0 (g.numM - 1) (markFace g n))
    ⟨g.rows - 1, g.cols - 1, fun _ _ => false, g.sn, g.sm, g.en, g.em⟩

/-- `validNodeMask[n][m] = true` for vectors of `N` vectors of length `M`. -/
def mark (N M n m : Nat) (v : Nat → Nat → Bool) : Res (Nat → Nat → Bool) :=
  if n < N ∧ m < M then .ok (upd v n m true) else .ub

/-- Loop body, `CurvilinearGrid.cpp:407-413`. -/
def markNodes (N M : Nat) (mask : Grid Bool) (n m : Nat) (v : Nat → Nat → Bool) : Res (Nat → Nat → Bool) := do
  let f ← getNode mask n m
  if f then do
    let v1 ← mark N M n m v
    let v2 ← mark N M n (m + 1) v1
    let v3 ← mark N M (n + 1) m v2
    mark N M (n + 1) (m + 1) v3
  else .ok v

/-- Loop body, `CurvilinearGrid.cpp:422-426`; the vector access is in range by the loop bounds. -/
def invalidate (v : Nat → Nat → Bool) (n m : Nat) (s : Grid P × Bool) : Res (Grid P × Bool) :=
  if v n m then .ok s
  else do
    let p ← getNode s.1 n m
    if valid p then do
      let g ← setNode s.1 n m inv
      .ok (g, true)
    else .ok s

/-- One round of `RemoveInvalidNodes`, `CurvilinearGrid.cpp:399-428`: the new grid and
`invalidNodesToRemove`. -/
def cleanRound (g : Grid P) : Res (Grid P × Bool) := do
  let mask ← computeGridFacesMask g
  let v ← forRange 0 (g.numN - 1) (fun n => forRange 0 (g.numM - 1) (markNodes g.numN g.numM mask n))
    (fun _ _ => false)
  forRange 0 g.numN (fun n => forRange 0 g.numM (invalidate v n)) (g, false)

/-- `RemoveInvalidNodes`, `CurvilinearGrid.cpp:391-431`; `none` when the recursion is deeper than `fuel`. -/
def removeInvalidNodes : Nat → Bool → Grid P → Option (Res (Grid P))
  | _, false, g => some (.ok g)
  | 0, true, _ => none
  | k + 1, true, g =>
    match cleanRound g with
    | .ok (g', f) => removeInvalidNodes k f g'
    | .throw => some .throw
    | .ub => some .ub

/-- `RemoveInvalidNodes(true)` with enough fuel (`removal_terminates`). -/
def clean (g : Grid P) : Res (Grid P) :=
  match removeInvalidNodes (g.numN * g.numM + 1) true g with
  | some r => r
  | none => .ub

end Verif.Curvi
