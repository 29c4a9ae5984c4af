import Verif.Curvi.CleanModel
/-!
# Model: restricting a curvilinear grid to a polygon

Models `CurvilinearGrid::Delete` (`CurvilinearGrid.cpp:169-249`) for one polygon, given as the predicate
`IsPointInPolygon(…, polygonIndex)`.  A mask is a grid of Booleans without removed lines.
-/
namespace Verif.Curvi
variable {P : Type} [PointLike P]

/-- For a mask, `valid` is the bit. -/
instance boolPoint : PointLike Bool := ⟨id, false, rfl⟩

/-- Loop body, `CurvilinearGrid.cpp:197-202`. -/
def markInside (inside : P → Bool) (g : Grid P) (n m : Nat) (mask : Grid Bool) : Res (Grid Bool) := do
  let p ← getNode g n m
  if inside p then setNode mask n m true else .ok mask

/-- Loop body, `CurvilinearGrid.cpp:211-217`; the four bits are read in another order here. -/
def clearFace (nodes : Grid Bool) (n m : Nat) (mask : Grid Bool) : Res (Grid Bool) := do
  let v ← areFaceNodesValid nodes n m
  if !v then setNode mask n m false else .ok mask

/-- Loop body, `CurvilinearGrid.cpp:242-246`. -/
def dropNode (v : Nat → Nat → Bool) (n m : Nat) (g : Grid P) : Res (Grid P) :=
  if v n m then .ok g else setNode g n m inv

/-- `Delete`, `CurvilinearGrid.cpp:169-249`, for a polygon that is there; the loop of lines 221-235 marks the corners of
the faces as `RemoveInvalidNodes` does. -/
def deleteOutside (inside : P → Bool) (g : Grid P) : Res (Grid P) :=
  if g.rows = 0 ∨ g.cols = 0 then .ok g
  else do
    let nodes ← forRange 0 g.numN (fun n => forRange 0 g.numM (markInside inside g n)) ⟨g.numN, g.numM, fun _ _ => false, 0, 0, 0, 0⟩
    let faces ← forRange 0 (g.numN - 1) (fun n => forRange 0 (g.numM - 1) (clearFace nodes n))
      ⟨g.numN - 1, g.numM - 1, fun _ _ => true, 0, 0, 0, 0⟩
    let v ← forRange 0 (g.numN - 1) (fun n => forRange 0 (g.numM - 1) (markNodes g.numN g.numM faces n)) (fun _ _ => false)
    forRange 0 g.numN (fun n => forRange 0 g.numM (dropNode v n)) g

end Verif.Curvi
