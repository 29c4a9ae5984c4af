import Verif.Quality.Model
import Mathlib.Data.Rat.Floor
/-!
# Model: bilinear interpolation on gridded samples

Models `libs/MeshKernel/include/MeshKernel/BilinearInterpolationOnGriddedSamples.hpp` and the choice of its constructor by the interface, in exact
arithmetic.  `num_x * num_y` is computed as an `int` (`libs/MeshKernelApi/include/MeshKernelApi/Utils.hpp:556`), so that it and every index below it fit.
-/
namespace Verif.Gridded
open Verif.Mesh
open Verif.Polygons (Pt)

/-- How the coordinates of the samples in one direction are given, `BilinearInterpolationOnGriddedSamples.hpp:58-75`: with a constant cell size (origin, size and
number), or one by one. -/
inductive Axis where
  | regular (origin size : ℚ) (num : Nat)
  | listed (coords : List ℚ)
  deriving DecidableEq, Repr

/-- `m_numXCoord`, `m_numYCoord`, `BilinearInterpolationOnGriddedSamples.hpp:120-121, 135-136`. -/
def Axis.num : Axis → Nat
  | .regular _ _ n => n
  | .listed l => l.length

/-- The samples: both directions and the values, row after row. -/
structure Samples where
  xs : Axis
  ys : Axis
  values : List ℚ
  deriving DecidableEq, Repr

/-- A `double` as it results from `GetFractionalNumberOfColumns`: minus infinity, infinity or not a number, or a number. -/
inductive Place where
  | low
  | high
  | here (q : ℚ)
  deriving DecidableEq, Repr

/-- The loop over listed coordinates, `BilinearInterpolationOnGriddedSamples.hpp:220-229, 247-256`, from the `i`-th coordinate on; -999 if there is none. -/
def search (x : ℚ) : Nat → List ℚ → ℚ
  | i, a :: b :: l => if x ≥ a ∧ x < b then (i : ℚ) + (x - a) / (b - a) else search x (i + 1) (b :: l)
  | _, _ => -999

/-- `GetFractionalNumberOfColumns` and `GetFractionalNumberOfRows`, `BilinearInterpolationOnGriddedSamples.hpp:208-258`; division of a number by zero is minus infinity,
infinity or not a number. -/
def fraction : Axis → ℚ → Place
  | .regular o c _, x => if c = 0 then (if x < o then .low else .high) else .here ((x - o) / c)
  | .listed l, x => .here (search x 0 l)

/-- The integral part of `std::modf`, `BilinearInterpolationOnGriddedSamples.hpp:183, 186`: rounded towards zero. -/
def whole (q : ℚ) : ℤ := if 0 ≤ q then ⌊q⌋ else ⌈q⌉

/-- `columnIndexTmp < 0`, `BilinearInterpolationOnGriddedSamples.hpp:188`. -/
def negative : Place → Bool
  | .low => true
  | .high => false
  | .here q => decide (whole q < 0)

/-- The cast to an index with the fractional part, `BilinearInterpolationOnGriddedSamples.hpp:183, 193`: undefined for infinity, for what is not a number and beyond the 32 bit
numbers. -/
def toIndex : Place → Res (Nat × ℚ)
  | .here q => if whole q ≤ missing then .ok ((whole q).toNat, q - whole q) else .ub
  | _ => .ub

/-- Addition of 32 bit numbers, `BilinearInterpolationOnGriddedSamples.hpp:196`. -/
def next (i : Nat) : Nat := (i + 1) % (missing + 1)

/-- `GetGriddedValue`, `BilinearInterpolationOnGriddedSamples.hpp:260-265`. -/
def valueAt (g : Samples) (i j : Nat) : Res ℚ := vget g.values (j * g.xs.num + i)

/-- The weighted mean, `BilinearInterpolationOnGriddedSamples.hpp:201-205`. -/
def blend (g : Samples) (i j : Nat) (s t : ℚ) : Res ℚ := do
  let d ← valueAt g (next i) (next j)
  let c ← valueAt g i (next j)
  let a ← valueAt g i j
  let b ← valueAt g (next i) j
  .ok (s * t * d + (1 - s) * t * c + (1 - s) * (1 - t) * a + s * (1 - t) * b)

/-- The test of the upper end and the weighted mean, `BilinearInterpolationOnGriddedSamples.hpp:196-205`. -/
def within (g : Samples) (c r : Nat × ℚ) : Res (Option ℚ) :=
  if next c.1 ≥ g.xs.num ∨ next r.1 ≥ g.ys.num then .ok none
  else do
    let v ← blend g c.1 r.1 c.2 r.2
    .ok (some v)

/-- `Interpolation`, `BilinearInterpolationOnGriddedSamples.hpp:175-206`; `none` is the missing value. -/
def interpolate (g : Samples) (p : Pt) : Res (Option ℚ) :=
  if negative (fraction g.xs p.x) || negative (fraction g.ys p.y) then .ok none
  else do
    let c ← toIndex (fraction g.xs p.x)
    let r ← toIndex (fraction g.ys p.y)
    within g c r

/-- A result as a number: the missing value is -999. -/
def number : Option ℚ → ℚ
  | none => -999
  | some v => v

/-- The coordinates of a node: an invalid one has -999 twice. -/
def place : Option Pt → Pt
  | none => ⟨-999, -999⟩
  | some p => p

/-- The results at nodes and at faces, `BilinearInterpolationOnGriddedSamples.hpp:153-157, 169-172`. -/
def interpolateAll (g : Samples) : List Pt → Res (List ℚ)
  | [] => .ok []
  | p :: l => do
    let v ← interpolate g p
    let vs ← interpolateAll g l
    .ok (number v :: vs)

/-- The results at edges, `BilinearInterpolationOnGriddedSamples.hpp:161-165`. -/
def means (nodeResults : List ℚ) : List Edge → Res (List ℚ)
  | [] => .ok []
  | e :: l => do
    let a ← vget nodeResults e.1
    let b ← vget nodeResults e.2
    let vs ← means nodeResults l
    .ok ((1 / 2) * (a + b) :: vs)

/-- The results, `libs/MeshKernel/include/MeshKernel/MeshInterpolation.hpp:79-81`. -/
structure Results where
  nodes : List ℚ
  edges : List ℚ
  faces : List ℚ
  deriving DecidableEq, Repr

/-- `Compute`, `BilinearInterpolationOnGriddedSamples.hpp:144-173`; `centres` are the mass centres of the faces. -/
def compute (g : Samples) (m : Mesh Pt) (centres : List Pt) : Res Results := do
  let ns ← interpolateAll g (m.nodes.map place)
  let es ← means ns m.edges
  let fs ← interpolateAll g centres
  .ok ⟨ns, es, fs⟩

/-- The samples as the interface is given them, `libs/MeshKernelApi/include/MeshKernelApi/GriddedSamples.hpp:33-61`. -/
structure Given where
  numX : Nat
  numY : Nat
  originX : ℚ
  originY : ℚ
  size : ℚ
  coordsX : Option (List ℚ)
  coordsY : Option (List ℚ)
  values : List ℚ

/-- `CreateBilinearInterpolator`, `libs/MeshKernelApi/include/MeshKernelApi/Utils.hpp:543-565`. -/
def samplesOf (a : Given) : Samples :=
  match a.coordsX, a.coordsY with
  | some xs, some ys => ⟨.listed (xs.take a.numX), .listed (ys.take a.numY), a.values⟩
  | _, _ => ⟨.regular a.originX a.size a.numX, .regular a.originY a.size a.numY, a.values⟩

end Verif.Gridded
