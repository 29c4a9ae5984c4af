import Verif.Polygons.RefineModel
import Mathlib.Data.List.Sort
import Mathlib.Data.Rat.Floor
/-!
# 1D networks

Models `libs/MeshKernel/src/Network1D.cpp`, the functions on polylines it uses, the construction of a 1D mesh from a network
up to the merging of close nodes, and the conversion of the lists passed to the API.  The distance of two points is a
parameter.  A division by zero, which gives infinity or not-a-number in the code, is the outcome `ub` here.
-/
namespace Verif.Network

open Verif.Polygons

/-! ## Polylines -/

/-- `ComputePolyLineEdgesLengths`, `libs/MeshKernel/src/Operations.cpp:1574-1591`. -/
def edgeLengths (dist : Pt → Pt → ℚ) : List Pt → List ℚ
  | a :: b :: ps => dist a b :: edgeLengths dist (b :: ps)
  | _ => []

/-- The loop of `ComputePolyLineNodalChainages`, `libs/MeshKernel/src/Operations.cpp:1603-1607`. -/
def runningSum : ℚ → List ℚ → List ℚ
  | acc, [] => [acc]
  | acc, l :: ls => acc :: runningSum (acc + l) ls

/-- `ComputePolyLineNodalChainages`, `libs/MeshKernel/src/Operations.cpp:1593-1609`. -/
def nodalChainages (dist : Pt → Pt → ℚ) (line : List Pt) : List ℚ :=
  if (edgeLengths dist line).isEmpty then [] else runningSum 0 (edgeLengths dist line)

/-- `std::sort`. -/
def sort (cs : List ℚ) : List ℚ := cs.insertionSort (· ≤ ·)

/-- The loop of `ComputePolyLineDiscretization`, `libs/MeshKernel/src/Operations.cpp:1626-1637`, at the segment `cur`. -/
def place (line : List Pt) (lengths nodal : List ℚ) : Nat → List ℚ → Res (List Pt)
  | _, [] => .ok []
  | cur, c :: cs => do
    let next ← vget nodal (cur + 1)
    let seg := if c > next then cur + 1 else cur
    let n0 ← vget nodal seg
    let a ← vget line seg
    let b ← vget line (seg + 1)
    let len ← vget lengths seg
    if len = 0 then .ub
    else do
      let ps ← place line lengths nodal seg cs
      .ok (pointAt a b ((c - n0) / len) :: ps)

/-- `ComputePolyLineDiscretization`, `libs/MeshKernel/src/Operations.cpp:1611-1640`. -/
def discretize (dist : Pt → Pt → ℚ) (line : List Pt) (chainages : List ℚ) : Res (List Pt) :=
  if line.length < 2 then .throw
  else place line (edgeLengths dist line) (nodalChainages dist line) 0 (sort chainages)

/-! ## The network -/

/-- `Network1D`: the polylines and their chainages. -/
structure Net where
  lines : List (List Pt)
  chainages : List (List ℚ)
  deriving DecidableEq, Repr

/-- The loop of the constructor, `libs/MeshKernel/src/Network1D.cpp:42-47`; `front` and `back` of an empty vector are
undefined. -/
def startChainages (dist : Pt → Pt → ℚ) : List (List Pt) → Res (List (List ℚ))
  | [] => .ok []
  | line :: ls => do
    let f ← vget (nodalChainages dist line) 0
    let b ← vget (nodalChainages dist line) ((nodalChainages dist line).length - 1)
    let rest ← startChainages dist ls
    .ok ([f, b] :: rest)

/-- The constructor, `libs/MeshKernel/src/Network1D.cpp:36-48`. -/
def create (dist : Pt → Pt → ℚ) (lines : List (List Pt)) : Res Net := do
  let cs ← startChainages dist lines
  .ok ⟨lines, cs⟩

/-- `m_chainages[p]`, `previousChainage` and `previousChainageIsAFixedPoint`. -/
structure FixState where
  cs : List ℚ
  prev : ℚ
  flag : Bool

/-- The part before the fixed point, `libs/MeshKernel/src/Network1D.cpp:79-90`. -/
def fixBefore (start minSize off f : ℚ) (s : FixState) : FixState :=
  if f - off - s.prev ≥ minSize ∧ f - off > start then ⟨s.cs ++ [f - off], f - off, true⟩
  else if s.flag then ⟨s.cs.dropLast ++ [(f - off + s.prev) / 2], (f - off + s.prev) / 2, true⟩
  else s

/-- The part after the fixed point, `libs/MeshKernel/src/Network1D.cpp:92-97`. -/
def fixAfter (finish minSize off f : ℚ) (s : FixState) : FixState :=
  if f + off - s.prev ≥ minSize ∧ f + off < finish then ⟨s.cs ++ [f + off], f + off, true⟩ else s

/-- The loop over the fixed chainages of a polyline, `libs/MeshKernel/src/Network1D.cpp:77-98`. -/
def fixLoop (start finish minSize off : ℚ) (fixed : List ℚ) (s : FixState) : FixState :=
  fixed.foldl (fun s f => fixAfter finish minSize off f (fixBefore start minSize off f s)) s

/-- The body of the loop over the polylines, `libs/MeshKernel/src/Network1D.cpp:62-98`. -/
def fixLine (minSize off : ℚ) (fixed cs : List ℚ) : List ℚ :=
  match fixed, cs with
  | f0 :: fs, start :: finish :: rest =>
    (fixLoop start finish minSize off (f0 :: fs) ⟨start :: finish :: rest, start, isEqual start f0⟩).cs
  | _, _ => cs

/-- `Network1D::ComputeFixedChainages`, `libs/MeshKernel/src/Network1D.cpp:50-100`. -/
def fixedChainages (net : Net) (fixed : List (List ℚ)) (minSize off : ℚ) : Res Net :=
  if net.lines.length ≠ fixed.length then .throw
  else .ok ⟨net.lines, List.zipWith (fixLine minSize off) fixed net.chainages⟩

/-- The new chainages between two neighbours, `libs/MeshKernel/src/Network1D.cpp:112-121`; the conversion of a number
outside the range of `UInt` is undefined. -/
def between (offset a b : ℚ) : Res (List ℚ) :=
  if b - a < offset then .ok []
  else if offset = 0 then .ub
  else
    let n := ⌈(b - a) / offset⌉
    if n < 0 ∨ 2 ^ 32 ≤ n then .ub
    else .ok ((List.range' 1 (n.toNat - 1)).map fun (j : Nat) => a + j * ((b - a) / n))

/-- The loop over the chainages, `libs/MeshKernel/src/Network1D.cpp:110-122`. -/
def intervals (offset : ℚ) : List ℚ → Res (List ℚ)
  | a :: b :: cs => do
    let x ← between offset a b
    let y ← intervals offset (b :: cs)
    .ok (x ++ y)
  | _ => .ok []

/-- The body of the loop over the polylines, `libs/MeshKernel/src/Network1D.cpp:108-125`. -/
def offsetLine (offset : ℚ) (cs : List ℚ) : Res (List ℚ) := do
  let new ← intervals offset (sort cs)
  .ok (sort cs ++ new)

/-- The loop over the polylines. -/
def offsetLines (offset : ℚ) : List (List ℚ) → Res (List (List ℚ))
  | [] => .ok []
  | cs :: rest => do
    let x ← offsetLine offset cs
    let y ← offsetLines offset rest
    .ok (x :: y)

/-- `Network1D::ComputeOffsettedChainages`, `libs/MeshKernel/src/Network1D.cpp:102-127`. -/
def offsettedChainages (net : Net) (offset : ℚ) : Res Net := do
  let cs ← offsetLines offset net.chainages
  .ok ⟨net.lines, cs⟩

/-- The loop of `Network1D::ComputeDiscretizationsFromChainages`, `libs/MeshKernel/src/Network1D.cpp:132-135`. -/
def discretizeLines (dist : Pt → Pt → ℚ) : List (List Pt) → List (List ℚ) → Res (List (List Pt))
  | [], _ => .ok []
  | _ :: _, [] => .ub
  | line :: ls, cs :: css => do
    let x ← discretize dist line cs
    let y ← discretizeLines dist ls css
    .ok (x :: y)

/-- `Network1D::ComputeDiscretizationsFromChainages`, `libs/MeshKernel/src/Network1D.cpp:129-137`. -/
def discretizations (dist : Pt → Pt → ℚ) (net : Net) : Res (List (List Pt)) :=
  discretizeLines dist net.lines net.chainages

/-! ## The 1D mesh -/

/-- `nodes`, `edges` and `numNodes` of the constructor. -/
structure MeshState where
  nodes : List Pt
  edges : List (Nat × Nat)
  numNodes : Nat
  deriving DecidableEq, Repr

/-- The body of the loop, `libs/MeshKernel/src/Mesh1D.cpp:52-65`. -/
def meshStep (s : MeshState) (d : List Pt) : MeshState :=
  if d.isEmpty then s
  else
    let nodes := s.nodes ++ d
    ⟨nodes, s.edges ++ (List.range' s.numNodes (nodes.length - 1 - s.numNodes)).map (fun i => (i, i + 1)),
      s.numNodes + nodes.length⟩

/-- The loop of `Mesh1D(Network1D&, double)`, `libs/MeshKernel/src/Mesh1D.cpp:50-66`. -/
def meshLoop (ds : List (List Pt)) : MeshState := ds.foldl meshStep ⟨[], [], 0⟩

/-- `Mesh1D(Network1D&, double)`, `libs/MeshKernel/src/Mesh1D.cpp:42-71`: nodes and edges before administration and merging
of close nodes. -/
def toMesh (dist : Pt → Pt → ℚ) (net : Net) : Res (List Pt × List (Nat × Nat)) := do
  let ds ← discretizations dist net
  .ok ((meshLoop ds).nodes, (meshLoop ds).edges)

/-! ## The API -/

/-- The loops of `ConvertGeometryListToVectorOfPointVectors` and `ConvertVectorToVectorOfVectors`,
`libs/MeshKernelApi/include/MeshKernelApi/Utils.hpp:83-108,115-136`, with the chunk collected so far. -/
def splitFrom {α : Type} (isSeparator : α → Bool) : List α → List α → List (List α)
  | chunk, [] => if chunk.isEmpty then [] else [chunk]
  | chunk, x :: xs =>
    if isSeparator x then chunk :: splitFrom isSeparator [] xs else splitFrom isSeparator (chunk ++ [x]) xs

/-- The conversion of a list to a vector of vectors. -/
def split {α : Type} (isSeparator : α → Bool) (xs : List α) : List (List α) := splitFrom isSeparator [] xs

/-- `mkernel_network1d_set`, `libs/MeshKernelApi/src/MeshKernel.cpp:660,665`. -/
def networkSet (dist : Pt → Pt → ℚ) (separator : ℚ) (pts : List Pt) : Res Net :=
  create dist (split (isSep separator) pts)

/-- `mkernel_network1d_compute_fixed_chainages`, `libs/MeshKernelApi/src/MeshKernel.cpp:686-693`. -/
def networkFixed (net : Net) (values : List ℚ) (minSize off : ℚ) : Res Net :=
  fixedChainages net (split (fun v => isEqual v missingDouble) values) minSize off

end Verif.Network
