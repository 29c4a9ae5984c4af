import Verif.Basic
/-!
# Matrix editing

Models `libs/MeshKernel/include/MeshKernel/Utilities/LinearAlgebra.hpp`.  A matrix is its number of
columns and its rows; `Rect` in the specification says that every row has that many entries.
-/
namespace Verif.LinAlg
variable {α : Type}

/-- An Eigen matrix. -/
structure Mat (α : Type) where
  cols : Nat
  rows : List (List α)
  deriving DecidableEq, Repr

/-- The overlapping block assignment of `EraseRows`, `LinearAlgebra.hpp:138-139`: entries are copied one by
one in ascending order, `n` of them from `src` to `dst`. -/
def moveUp : Nat → Nat → Nat → List α → Res (List α)
  | 0, _, _, l => .ok l
  | n + 1, dst, src, l => do
    let v ← vget l src
    let l' ← vset l dst v
    moveUp n (dst + 1) (src + 1) l'

/-- The body of `EraseRows` and `EraseCols` on a sequence: move the kept block, then
`conservativeResize`, `LinearAlgebra.hpp:132-142` and `177-187`. -/
def eraseBody (l : List α) (b e : Nat) : Res (List α) := do
  let n := l.length - (e - b + 1)
  let l' ← moveUp (n - b) b (e + 1) l
  .ok (l'.take n)

/-- Apply to every row. -/
def mapRows (f : List α → Res (List α)) : List (List α) → Res (List (List α))
  | [] => .ok []
  | r :: rs => do
    let r' ← f r
    let rs' ← mapRows f rs
    .ok (r' :: rs')

/-- `EraseRows`, `LinearAlgebra.hpp:118-143`. -/
def eraseRows (m : Mat α) (b e : Int) : Res (Mat α) :=
  if b < 0 ∨ e < b ∨ e > (m.rows.length : Int) - 1 then .throw
  else do
    let rs ← eraseBody m.rows b.toNat e.toNat
    .ok { m with rows := rs }

/-- `EraseCols`, `LinearAlgebra.hpp:163-188`. -/
def eraseCols (m : Mat α) (b e : Int) : Res (Mat α) :=
  if b < 0 ∨ e < b ∨ e > (m.cols : Int) - 1 then .throw
  else do
    let rs ← mapRows (fun r => eraseBody r b.toNat e.toNat) m.rows
    .ok ⟨m.cols - (e.toNat - b.toNat + 1), rs⟩

/-- `InsertRow`, `LinearAlgebra.hpp:208-225`; a vector of the wrong size violates an Eigen assertion and is
undefined behaviour in a release build. -/
def insertRow (m : Mat α) (v : List α) (i : Int) : Res (Mat α) :=
  if i < 0 ∨ i > (m.rows.length : Int) then .throw
  else if v.length ≠ m.cols then .ub
  else
    let block := m.rows.drop i.toNat
    .ok { m with rows := m.rows.take i.toNat ++ [v] ++ block }

/-- One row of `InsertCol`. -/
def insertInRow (i : Nat) : List (List α) → List α → Res (List (List α))
  | [], [] => .ok []
  | r :: rs, x :: xs => do
    let rest ← insertInRow i rs xs
    .ok ((r.take i ++ [x] ++ r.drop i) :: rest)
  | _, _ => .ub

/-- `InsertCol`, `LinearAlgebra.hpp:297-314`. -/
def insertCol (m : Mat α) (v : List α) (i : Int) : Res (Mat α) :=
  if i < 0 ∨ i > (m.cols : Int) then .throw
  else do
    let rs ← insertInRow i.toNat m.rows v
    .ok ⟨m.cols + 1, rs⟩

/-- `std::swap(row[a], row[b])`. -/
def swapAt (l : List α) (a b : Nat) : Res (List α) := do
  let x ← vget l a
  let y ← vget l b
  let l1 ← vset l a y
  vset l1 b x

/-- `SwapRows`, `LinearAlgebra.hpp:377-397`. -/
def swapRows (m : Mat α) (a b : Int) : Res (Mat α) :=
  if a < 0 ∨ a > (m.rows.length : Int) - 1 ∨ b < 0 ∨ b > (m.rows.length : Int) - 1 then .throw
  else if a = b then .ok m
  else do
    let rs ← swapAt m.rows a.toNat b.toNat
    .ok { m with rows := rs }

/-- `SwapColumns`, `LinearAlgebra.hpp:348-368`. -/
def swapColumns (m : Mat α) (a b : Int) : Res (Mat α) :=
  if a < 0 ∨ a > (m.cols : Int) - 1 ∨ b < 0 ∨ b > (m.cols : Int) - 1 then .throw
  else if a = b then .ok m
  else do
    let rs ← mapRows (fun r => swapAt r a.toNat b.toNat) m.rows
    .ok { m with rows := rs }

/-- An entry after `conservativeResize` from `r × c`: kept, or not initialised (`none`). -/
def conservative (m : Mat α) (i j : Nat) : Option α := m.rows[i]?.bind (fun r => r[j]?)

/-- `ResizeAndFillMatrix`, `LinearAlgebra.hpp:67-109`: the entries afterwards, `none` meaning not
initialised.  `topRightCorner` (line 104) with more rows than the matrix has is undefined behaviour. -/
def resizeFill (m : Mat α) (rows cols : Int) (preserve : Bool) (fill : α) :
    Res (Bool × Nat × Nat × (Nat → Nat → Option α)) :=
  if rows < 0 ∨ cols < 0 then .throw
  else
    let r := rows.toNat
    let c := cols.toNat
    let rOld := m.rows.length
    let cOld := m.cols
    let resize := decide (r ≠ rOld) || decide (c ≠ cOld)
    if !preserve then .ok (resize, r, c, fun _ _ => some fill)
    else if !resize then .ok (resize, r, c, conservative m)
    else if c > cOld ∧ r < rOld then .ub
    else
      let e1 : Nat → Nat → Option α := conservative m
      let e2 : Nat → Nat → Option α := fun i j => if r > rOld ∧ r - (r - rOld) ≤ i then some fill else e1 i j
      let e3 : Nat → Nat → Option α := fun i j => if c > cOld ∧ i < rOld ∧ c - (c - cOld) ≤ j then some fill else e2 i j
      .ok (resize, r, c, e3)

/-- The `while` loop of `ReorderRow`, `LinearAlgebra.hpp:439-445`; `none` when it has not finished after
`fuel` rounds.  Indices are natural numbers (negative ones are not modelled). -/
def reorderCycle (order : List Nat) (i : Nat) :
    Nat → List α → List Bool → Nat → Nat → Option (Res (List α × List Bool))
  | fuel, row, sw, last, j =>
    if i = j then some (.ok (row, sw))
    else match fuel with
      | 0 => none
      | fuel + 1 =>
        match swapAt row last j, vset sw j true, vget order j with
        | .ok row', .ok sw', .ok j' => reorderCycle order i fuel row' sw' j j'
        | _, _, _ => some .ub

/-- The `for` loop of `ReorderRow`, `LinearAlgebra.hpp:430-446`. -/
def reorderLoop (order : List Nat) (fuel : Nat) : List Nat → List α → List Bool → Option (Res (List α))
  | [], row, _ => some (.ok row)
  | i :: is, row, sw =>
    match vget sw i with
    | .ok true => reorderLoop order fuel is row sw
    | .ok false =>
      match vget order i, vset sw i true with
      | .ok j, .ok sw1 =>
        match reorderCycle order i fuel row sw1 i j with
        | none => none
        | some (.ok (row', sw')) => reorderLoop order fuel is row' sw'
        | some _ => some .ub
      | _, _ => some .ub
    | _ => some .ub

/-- `ReorderRow`, `LinearAlgebra.hpp:421-447`. -/
def reorderRow (fuel : Nat) (row : List α) (order : List Nat) : Option (Res (List α)) :=
  if order.length ≠ row.length then some .throw
  else reorderLoop order fuel (List.range row.length) row (List.replicate row.length false)

/-- `SortRow`, `LinearAlgebra.hpp:405-413`; `std::ranges::stable_sort` is modelled by the stable
`List.mergeSort`; all compared indices are in range. -/
def sortRow (lt : α → α → Bool) (row : List α) : List Nat :=
  (List.range row.length).mergeSort (fun a b => match row[a]?, row[b]? with
    | some x, some y => !lt y x
    | none, _ => true
    | some _, none => false)

end Verif.LinAlg
