import Verif.Smooth.Model
/-!
# Orthogonalisation of a curvilinear grid

Models `CurvilinearGridOrthogonalization.cpp`.  Numbers are elements of a field; `none` is what is not a finite number.  Parameters are the types of the nodes
(`ComputeGridNodeTypes`, modelled in `Smooth`), the mask of the faces, the quotient of the mean distances of a face (the sums of lines 325-372 and 414-622) and
the search of the closest point on a spline.  Grids have no hidden rows and columns, and the types are such that the nodes that are read exist.
-/
namespace Verif.GridOrtho
open Verif.Smooth (NodeType)

variable {K : Type} [Field K] [DecidableEq K]

/-- A position, or none if it is not a number. -/
abbrev Pos (K : Type) := Option (K × K)

/-- The nodes of a grid. -/
abbrev Nodes (K : Type) := Nat → Nat → Pos K

/-- What does not change during the call. -/
structure Setup (K : Type) where
  /-- `NumN()` and `NumM()`. -/
  numN : Nat
  numM : Nat
  /-- `m_lowerLeft` and `m_upperRight`, rows first. -/
  lo : Nat × Nat
  up : Nat × Nat
  types : Nat → Nat → NodeType
  frozen : Nat → Nat → Bool
  /-- `IsFaceMaskValid`. -/
  mask : Nat → Nat → Bool
  /-- The quotient of the mean distances of a face, `CurvilinearGridOrthogonalization.cpp:384`, from the nodes. -/
  ratio : Nodes K → Nat → Nat → Option K
  /-- `ComputeClosestPointOnSplineSegment` for a spline, its start and its end. -/
  project : Nat → Nat → Nat → Pos K → Pos K
  /-- The numbers of iterations. -/
  outer : Nat
  boundary : Nat
  inner : Nat

/-- Division in floating point numbers: no finite number for a division by zero. -/
def quot (a b : K) : Option K := if b = 0 then none else some (a / b)

/-- A node replaced. -/
def put (c : Nodes K) (n m : Nat) (p : Pos K) : Nodes K := fun i j => if i = n ∧ j = m then p else c i j

/-! ## Coefficients -/

/-- `m_orthoEqTerms.atp`, `CurvilinearGridOrthogonalization.cpp:318-323, 374-386`: outside of the block it keeps the missing value. -/
def atp (s : Setup K) (c : Nodes K) (n m : Nat) : Option K :=
  if s.lo.1 ≤ n ∧ n < s.up.1 ∧ s.lo.2 ≤ m ∧ m < s.up.2 ∧ s.mask n m = true then s.ratio c n m else some (-999)

/-- The five coefficients of a node. -/
structure Terms (K : Type) where
  a : K
  b : K
  c : K
  d : K
  e : K

/-- The sums `CurvilinearGridOrthogonalization.cpp:404-409`. -/
def sums (t : Nat → Nat → Option K) (n m : Nat) : Option (Terms K) := do
  let q ← t n m
  let q1 ← t n (m - 1)
  let q2 ← t (n - 1) m
  let q3 ← t (n - 1) (m - 1)
  let r ← quot 1 q
  let r1 ← quot 1 q1
  let r2 ← quot 1 q2
  let r3 ← quot 1 q3
  some ⟨q1 + q, q3 + q2, r2 + r, r3 + r1, -(q1 + q) - (q3 + q2) - (r2 + r) - (r3 + r1)⟩

/-- The coefficients, `CurvilinearGridOrthogonalization.cpp:388-411`: zero at nodes that are not inside of the block. -/
def terms (s : Setup K) (t : Nat → Nat → Option K) (n m : Nat) : Option (Terms K) :=
  if s.lo.1 + 1 ≤ n ∧ n < s.up.1 ∧ s.lo.2 + 1 ≤ m ∧ m < s.up.2 ∧ s.types n m = .internal then sums t n m else some ⟨0, 0, 0, 0, 0⟩

/-! ## Inner nodes -/

/-- The new position of an inner node, `CurvilinearGridOrthogonalization.cpp:293-300`. -/
def relaxed (t : Option (Terms K)) (ω : K) (c : Nodes K) (n m : Nat) : Option (K × K) := do
  let k ← t
  let p1 ← c (n + 1) m
  let p2 ← c (n - 1) m
  let p3 ← c n (m + 1)
  let p4 ← c n (m - 1)
  let p ← c n m
  let x ← quot (p1.1 * k.a + p2.1 * k.b + p3.1 * k.c + p4.1 * k.d + p.1 * k.e) k.e
  let y ← quot (p1.2 * k.a + p2.2 * k.b + p3.2 * k.c + p4.2 * k.d + p.2 * k.e) k.e
  some (p.1 - x * ω, p.2 - y * ω)

/-- The body of the loops, `CurvilinearGridOrthogonalization.cpp:283-300`. -/
def relaxNode (s : Setup K) (t : Nat → Nat → Option (Terms K)) (ω : K) (c : Nodes K) (q : Nat × Nat) : Nodes K :=
  if s.types q.1 q.2 = .internal ∧ s.frozen q.1 q.2 = false then put c q.1 q.2 (relaxed (t q.1 q.2) ω c q.1 q.2) else c

/-- The nodes that are visited, `CurvilinearGridOrthogonalization.cpp:270-282`. -/
def places (s : Setup K) : List (Nat × Nat) :=
  (List.range' (max 1 s.lo.1) (min s.up.1 (s.numN - 1) - max 1 s.lo.1)).flatMap fun n =>
    (List.range' (max 1 s.lo.2) (min s.up.2 (s.numM - 1) - max 1 s.lo.2)).map fun m => (n, m)

/-- The next factor, `CurvilinearGridOrthogonalization.cpp:304-311`. -/
def nextFactor (first : Bool) (ω : K) : K :=
  if first then 1 / (1 - 1 / 2 * (9 / 10 * (9 / 10))) else 1 / (1 - ω * (1 / 4) * (9 / 10 * (9 / 10)))

/-- The rounds, `CurvilinearGridOrthogonalization.cpp:277-312`. -/
def solveRounds (s : Setup K) (t : Nat → Nat → Option (Terms K)) : Nat → Bool → K → Nodes K → Nodes K
  | 0, _, _, c => c
  | k + 1, first, ω, c => solveRounds s t k false (nextFactor first ω) ((places s).foldl (relaxNode s t ω) c)

/-- `Solve`, `CurvilinearGridOrthogonalization.cpp:264-313`. -/
def solve (s : Setup K) (t : Nat → Nat → Option (Terms K)) (c : Nodes K) : Nodes K := solveRounds s t s.inner true 1 c

/-! ## Nodes on the border -/

/-- Where the nodes next to the border are. -/
inductive Side where
  | none | above | below

/-- The weighted mean `CurvilinearGridOrthogonalization.cpp:149-167, 229-247`: `qb` and `qc` are the weights of the nodes before and after, `w` of the inner node;
`σ` is 1 or -1. -/
def pulled (qb qc w σ : K) (b v a : K × K) : Option (K × K) := do
  let x ← quot (b.1 * qb + v.1 * w + a.1 * qc + σ * (a.2 - b.2)) (qb + qc + w)
  let y ← quot (b.2 * qb + v.2 * w + a.2 * qc + σ * (b.1 - a.1)) (qb + qc + w)
  some (x, y)

/-- The position before projection of a node on a horizontal border, `CurvilinearGridOrthogonalization.cpp:144-167`. -/
def wantedH (t : Nat → Nat → Option K) (c : Nodes K) (side : Side) (n m : Nat) : Option (K × K) :=
  match side with
  | .none => .none
  | .above => do
    let qb ← t (n - 1) m
    let qc ← t n m
    let w ← (do let u ← quot 1 qb; let v ← quot 1 qc; some (u + v))
    let b ← c (n - 1) m
    let v ← c n (m + 1)
    let a ← c (n + 1) m
    pulled qb qc w 1 b v a
  | .below => do
    let qb ← t (n - 1) (m - 1)
    let qc ← t n (m - 1)
    let w ← (do let u ← quot 1 qb; let v ← quot 1 qc; some (u + v))
    let b ← c (n - 1) m
    let v ← c n (m - 1)
    let a ← c (n + 1) m
    pulled qb qc w (-1) b v a

/-- The same for a vertical border, `CurvilinearGridOrthogonalization.cpp:224-247`. -/
def wantedV (t : Nat → Nat → Option K) (c : Nodes K) (side : Side) (n m : Nat) : Option (K × K) :=
  match side with
  | .none => .none
  | .above => do
    let q1 ← t n (m - 1)
    let q2 ← t n m
    let qb ← quot 1 q1
    let qc ← quot 1 q2
    let b ← c n (m - 1)
    let v ← c (n + 1) m
    let a ← c n (m + 1)
    pulled qb qc (q1 + q2) (-1) b v a
  | .below => do
    let q1 ← t (n - 1) (m - 1)
    let q2 ← t (n - 1) m
    let qb ← quot 1 q1
    let qc ← quot 1 q2
    let b ← c n (m - 1)
    let v ← c (n - 1) m
    let a ← c n (m + 1)
    pulled qb qc (q1 + q2) 1 b v a

/-- Is the node in the block?  `CurvilinearGridOrthogonalization.cpp:135-138, 216-219`. -/
def inBlock (s : Setup K) (n m : Nat) : Bool := decide (s.lo.1 ≤ n ∧ n ≤ s.up.1 ∧ s.lo.2 ≤ m ∧ m ≤ s.up.2)

/-- One node of a horizontal border, `CurvilinearGridOrthogonalization.cpp:132-175`.  The check of line 139 looks at the end of the run and never applies. -/
def projectH (s : Setup K) (t : Nat → Nat → Option K) (side : Side) (m start stop : Nat) (c : Nodes K) (i : Nat) : Nodes K :=
  if inBlock s i m then put c i m (s.project m start stop (wantedH t c side i m)) else c

/-- One node of a vertical border, `CurvilinearGridOrthogonalization.cpp:213-258`. -/
def projectV (s : Setup K) (t : Nat → Nat → Option K) (side : Side) (n start stop : Nat) (c : Nodes K) (j : Nat) : Nodes K :=
  if inBlock s n j then put c n j (s.project (s.numM + n) start stop (wantedV t c side n j)) else c

/-- `startN` (or `startM`), `nextVertical` (or `nextHorizontal`) and the nodes, `CurvilinearGridOrthogonalization.cpp:105-106, 186-187`. -/
structure Scan (K : Type) where
  start : Option Nat
  side : Side
  nodes : Nodes K

/-- The end of a run, `CurvilinearGridOrthogonalization.cpp:126-176, 207-259`: project the nodes between if there is a start and a side. -/
def closeRun (f : Side → Nat → Nat → Nodes K → Nat → Nodes K) (z : Scan K) (i : Nat) : Scan K :=
  match z.start, z.side with
  | some st, .above => { z with nodes := (List.range' (st + 1) (i - (st + 1))).foldl (f .above st i) z.nodes }
  | some st, .below => { z with nodes := (List.range' (st + 1) (i - (st + 1))).foldl (f .below st i) z.nodes }
  | _, _ => z

/-- One node of a horizontal line, `CurvilinearGridOrthogonalization.cpp:107-177`. -/
def stepH (s : Setup K) (t : Nat → Nat → Option K) (m : Nat) (z : Scan K) (n : Nat) : Scan K :=
  match s.types n m with
  | .bottomLeft => { z with start := some n }
  | .upperLeft => { z with start := some n }
  | .bottom => { z with side := .above }
  | .up => { z with side := .below }
  | .bottomRight => closeRun (fun side st e => projectH s t side m st e) z n
  | .upperRight => closeRun (fun side st e => projectH s t side m st e) z n
  | _ => z

/-- One node of a vertical line, `CurvilinearGridOrthogonalization.cpp:188-260`. -/
def stepV (s : Setup K) (t : Nat → Nat → Option K) (n : Nat) (z : Scan K) (m : Nat) : Scan K :=
  match s.types n m with
  | .bottomLeft => { z with start := some m }
  | .bottomRight => { z with start := some m }
  | .left => { z with side := .above }
  | .right => { z with side := .below }
  | .upperLeft => closeRun (fun side st e => projectV s t side n st e) z m
  | .upperRight => closeRun (fun side st e => projectV s t side n st e) z m
  | _ => z

/-- `ProjectHorizontalBoundaryGridNodes`, `CurvilinearGridOrthogonalization.cpp:100-179`. -/
def horizontal (s : Setup K) (t : Nat → Nat → Option K) (c : Nodes K) : Nodes K :=
  (List.range s.numM).foldl (fun c m => ((List.range s.numN).foldl (stepH s t m) ⟨none, .none, c⟩).nodes) c

/-- `ProjectVerticalBoundariesGridNodes`, `CurvilinearGridOrthogonalization.cpp:181-262`. -/
def vertical (s : Setup K) (t : Nat → Nat → Option K) (c : Nodes K) : Nodes K :=
  (List.range s.numN).foldl (fun c n => ((List.range s.numM).foldl (stepV s t n) ⟨none, .none, c⟩).nodes) c

/-! ## The call -/

/-- The inner loop of `Compute`, `CurvilinearGridOrthogonalization.cpp:89-94`. -/
def boundaryRounds (s : Setup K) (t : Nat → Nat → Option K) : Nat → Nodes K → Nodes K
  | 0, c => c
  | k + 1, c => boundaryRounds s t k (vertical s t (horizontal s t (solve s (terms s t) c)))

/-- The outer loop of `Compute`, `CurvilinearGridOrthogonalization.cpp:86-95`. -/
def outerRounds (s : Setup K) : Nat → Nodes K → Nodes K
  | 0, c => c
  | k + 1, c => outerRounds s k (boundaryRounds s (atp s c) s.boundary c)

/-- `Compute`, `CurvilinearGridOrthogonalization.cpp:67-98`, after the types have been computed: the nodes afterwards. -/
def compute (s : Setup K) (c : Nodes K) : Nodes K := outerRounds s s.outer c

/-- Undo and redo exchange the nodes of the block that were saved, `CurvilinearGridBlock.cpp:28-40`, `CurvilinearGridOrthogonalization.cpp:74-77`; the block reaches up to and including the upper right corner. -/
def restore (s : Setup K) (saved now : Nodes K) : Nodes K := fun n m => if inBlock s n m then saved n m else now n m

end Verif.GridOrtho
