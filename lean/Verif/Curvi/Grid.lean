import Verif.Loop
/-!
# Curvilinear grids: storage, indexing, conversion

Models parts of `libs/MeshKernel/include/MeshKernel/CurvilinearGrid/CurvilinearGrid.hpp` and
`libs/MeshKernel/src/CurvilinearGrid/CurvilinearGrid.cpp`.

The node matrix is a function with its numbers of rows and columns; reading or writing outside of it is
undefined behaviour.  `UInt` numbers are natural numbers; where a product may exceed 32 bits (flat indices)
the wrap-around is modelled with `u32`, elsewhere the numbers are bounded by matrix dimensions, which fit.
The spatial search that turns a point into a node index is not part of this model: the operations take the
index it found.
-/
namespace Verif.Curvi

/-- What grid operations need from `Point`: `IsValid` and the invalid point `SetInvalid` assigns
(`Point.hpp`). -/
class PointLike (P : Type) where
  valid : P → Bool
  inv : P
  valid_inv : valid inv = false

export PointLike (valid inv)

/-- The node matrix and the offsets hiding its first and last rows and columns,
`CurvilinearGrid.hpp:502-519`. Faces mask, node types, trees and projection are left out. -/
structure Grid (P : Type) where
  rows : Nat
  cols : Nat
  cell : Nat → Nat → P
  sn : Nat := 0
  sm : Nat := 0
  en : Nat := 0
  em : Nat := 0

variable {P : Type}

/-- `NumN`, `CurvilinearGrid.hpp:386`. -/
def Grid.numN (g : Grid P) : Nat := g.rows - g.sn - g.en

/-- `NumM`, `CurvilinearGrid.hpp:382`. -/
def Grid.numM (g : Grid P) : Nat := g.cols - g.sm - g.em

/-- `IsValid`, `CurvilinearGrid.hpp:118-121`. -/
def Grid.isValid (g : Grid P) : Bool := decide (g.numM > 1) && decide (g.numN > 1)

/-- `SetGridNodes`, `CurvilinearGrid.cpp:137-151`: the offsets stay as they are. -/
def setGridNodes (g : Grid P) (rows cols : Nat) (cell : Nat → Nat → P) : Res (Grid P) :=
  if rows ≤ 1 ∨ cols ≤ 1 then .throw
  else .ok { g with rows := rows, cols := cols, cell := cell }

/-- `GetNode` for reading, `CurvilinearGrid.hpp:553-566`. -/
def getNode (g : Grid P) (n m : Nat) : Res P :=
  if n ≥ g.rows then .throw
  else if m ≥ g.cols then .throw
  else if n + g.sn < g.rows ∧ m + g.sm < g.cols then .ok (g.cell (n + g.sn) (m + g.sm))
  else .ub

/-- The matrix with one entry replaced. -/
def upd (c : Nat → Nat → P) (i j : Nat) (p : P) : Nat → Nat → P :=
  fun a b => if a = i ∧ b = j then p else c a b

/-- Assigning through the reference returned by `GetNode`, `CurvilinearGrid.hpp:533-551`. -/
def setNode (g : Grid P) (n m : Nat) (p : P) : Res (Grid P) :=
  if n ≥ g.rows then .throw
  else if m ≥ g.cols then .throw
  else if n + g.sn < g.rows ∧ m + g.sm < g.cols then
    .ok { g with cell := upd g.cell (n + g.sn) (m + g.sm) p }
  else .ub

/-- A 32 bit result. -/
def u32 (x : Nat) : Nat := x % 4294967296

/-- `GetNumNodes`, `CurvilinearGrid.hpp:308`. -/
def numNodes (g : Grid P) : Nat := u32 (g.numN * g.numM)

/-- `GetNumEdges`, `CurvilinearGrid.hpp:311-312`. -/
def numEdges (g : Grid P) : Nat := u32 (g.numM * (g.numN - 1) + (g.numM - 1) * g.numN)

/-- `GetNumFaces`, `CurvilinearGrid.hpp:315`. -/
def numFaces (g : Grid P) : Nat := u32 ((g.numN - 1) * (g.numM - 1))

/-- `GetCurvilinearGridNodeIndices`, `CurvilinearGrid.hpp:326-336`. -/
def nodeIndices (g : Grid P) (index : Nat) : Res (Nat × Nat) :=
  if index ≥ u32 (g.numM * g.numN) then .throw
  else .ok (index / g.numM, index % g.numM)

/-- `GetNodeIndex`, `CurvilinearGrid.hpp:340-348`. -/
def nodeIndex (g : Grid P) (i : Nat × Nat) : Res Nat :=
  if ¬ (i.2 ≠ missing ∧ i.1 ≠ missing) then .throw
  else .ok (u32 (i.2 + u32 (i.1 * g.numM)))

/-- `result[ind] = x; ind++;` -/
def store {α : Type} (x : α) (s : List α × Nat) : Res (List α × Nat) := do
  let l ← vset s.1 s.2 x
  .ok (l, s.2 + 1)

/-- `ComputeNodes`, `CurvilinearGrid.cpp:1219-1238`. -/
def computeNodes [PointLike P] (g : Grid P) : Res (List P) :=
  if !g.isValid then .throw
  else do
    let r ← forRange 0 g.numN (fun n => forRange 0 g.numM (fun m s => do
      let p ← getNode g n m
      store p s)) (List.replicate (g.numN * g.numM) (inv : P), 0)
    .ok r.1

/-- `ComputeNodeIndices`, `CurvilinearGrid.cpp:1295-1312`. -/
def computeNodeIndices (g : Grid P) : Res (List (Nat × Nat)) := do
  let r ← forRange 0 g.numN (fun n => forRange 0 g.numM (fun m => store (n, m)))
    (List.replicate (g.numN * g.numM) (missing, missing), 0)
  .ok r.1

/-- `ComputeEdges`, `CurvilinearGrid.cpp:1240-1275`. A default-constructed edge is not read before it is
written, `(0, 0)` stands for it. -/
def computeEdges (g : Grid P) : Res (List (Nat × Nat)) :=
  if !g.isValid then .throw
  else do
    let numM := g.numM
    let numN := g.numN
    let s ← forRange 0 (numN - 1) (fun n => forRange 0 numM (fun m =>
      store (numM * n + m, numM * (n + 1) + m)))
      (List.replicate (numM * (numN - 1) + (numM - 1) * numN) (0, 0), 0)
    let r ← forRange 0 numN (fun n => forRange 0 (numM - 1) (fun m =>
      store (numM * n + m, numM * n + m + 1))) s
    .ok r.1

end Verif.Curvi
