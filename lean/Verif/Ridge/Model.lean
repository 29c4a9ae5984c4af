import Verif.Loop
import Mathlib.Algebra.Order.Field.Basic
/-!
# Ridges of gridded samples

Model of `mkernel_mesh2d_refine_ridges_based_on_gridded_samples` up to the refinement: the conversion of the grid into samples and
`SamplesHessianCalculator`, `libs/MeshKernel/src/SamplesHessianCalculator.cpp`. Numbers are taken from an ordered field; a division by
zero gives the separate outcome "not a number". Cartesian coordinates only. The eigenvalues computed by Eigen and the comparison `IsEqual`
with the missing value are parameters. Index arithmetic does not wrap around (the number of samples is below 2^32) except where said.
-/
namespace Verif.Ridge
variable {K : Type} [Field K] [LinearOrder K]

/-- `Sample`, `libs/MeshKernel/include/MeshKernel/Entities.hpp:109-122`. -/
structure Sample (K : Type) where
  x : K
  y : K
  value : K
  deriving DecidableEq, Repr

/-- A sample of the result; `none` stands for a value that is not a finite number. -/
structure Strength (K : Type) where
  x : K
  y : K
  value : Option K
  deriving DecidableEq, Repr

/-- What is not modelled: the real parts of the eigenvalues that `Eigen::EigenSolver` finds for the matrix with the rows `(a, b)` and
`(c, d)`, and whether a number is within the tolerance of `IsEqual` (`Utilities/NumericFunctions.hpp:44-56`) of the missing value. -/
structure Env (K : Type) where
  eig : K × K × K × K → K × K
  near : K → Bool

/-- `UInt` subtraction of one. -/
def pred (n : Nat) : Nat := if n = 0 then missing else n - 1

/-- Reading an element of a column major matrix with `n1` rows and `n2` columns, `libs/MeshKernel/include/MeshKernel/Hessian.hpp:116-119`. -/
def mget {α : Type} (n1 n2 : Nat) (z : List α) (i j : Nat) : Res α := if i < n1 ∧ j < n2 then vget z (i + n1 * j) else .ub

/-- Writing an element of a column major matrix, `libs/MeshKernel/include/MeshKernel/Hessian.hpp:121-124`. -/
def mset {α : Type} (n1 n2 : Nat) (z : List α) (i j : Nat) (a : α) : Res (List α) := if i < n1 ∧ j < n2 then vset z (i + n1 * j) a else .ub

/-- The first loops of `SmoothSamples`, `libs/MeshKernel/src/SamplesHessianCalculator.cpp:17-23`. -/
def values (n1 n2 : Nat) (s : List (Sample K)) : Res (List K) :=
  forRange 0 n1 (fun i => forRange 0 n2 (fun j z => do
    let p ← vget s (i + n1 * j)
    mset n1 n2 z i j p.value)) (List.replicate (n1 * n2) 0)

/-- One element of one smoothing round, `libs/MeshKernel/src/SamplesHessianCalculator.cpp:34-78`. The weights are all one where the
new value is set. -/
def smoothAt (n1 n2 : Nat) (old : List K) (i j : Nat) (z : List K) : Res (List K) := do
  let c ← mget n1 n2 old i j
  if c = -999 then .ok z else do
  let l ← mget n1 n2 old (i - 1) j
  let r ← mget n1 n2 old (i + 1) j
  let d ← mget n1 n2 old i (j - 1)
  let u ← mget n1 n2 old i (j + 1)
  if l = -999 ∨ r = -999 ∨ d = -999 ∨ u = -999 then .ok z else
  mset n1 n2 z i j ((1 - 1 / 2) * c + 1 / 2 * (l + r + d + u) / 4)

/-- One smoothing round, `libs/MeshKernel/src/SamplesHessianCalculator.cpp:27-80`. -/
def smoothRound (n1 n2 : Nat) (z : List K) : Res (List K) :=
  forRange 1 (pred n2) (fun j => forRange 1 (pred n1) (fun i => smoothAt n1 n2 z i j)) z

/-- The rounds of `SmoothSamples`, `libs/MeshKernel/src/SamplesHessianCalculator.cpp:25-81`. -/
def smooth (n1 n2 : Nat) : Nat → List K → Res (List K)
  | 0, z => .ok z
  | k + 1, z => do
    let z' ← smoothRound n1 n2 z
    smooth n1 n2 k z'

/-- The slope in a control volume: left at the missing value, a division by zero, or a vector. -/
inductive Slope (K : Type) where
  | missing
  | nan
  | vec (x y : K)
  deriving DecidableEq, Repr

/-- What `ComputeGradient` gives: the slope, the vector `S` and the two areas. -/
structure Flux (K : Type) where
  slope : Slope K
  sx : K
  sy : K
  areaL : K
  areaR : K
  deriving DecidableEq, Repr

/-- The area `darea` of `ComputeGradient`, `libs/MeshKernel/src/SamplesHessianCalculator.cpp:141-152`, with the left point `l` and the
right point `r`. -/
def volume (p0 p1 : Sample K) (lx ly rx ry : K) : K :=
  1 / 2 * ((ry - ly) * p0.x + -(rx - lx) * p0.y + (-(ry - ly) * p1.x + (rx - lx) * p1.y) + (-(p1.y - p0.y) * lx + (p1.x - p0.x) * ly) +
    ((p1.y - p0.y) * rx + -(p1.x - p0.x) * ry))

/-- The slope of `ComputeGradient`, `libs/MeshKernel/src/SamplesHessianCalculator.cpp:154-165`. -/
def slopeOf (p0 p1 : Sample K) (lx ly rx ry z1 zL zR : K) : Slope K :=
  if volume p0 p1 lx ly rx ry = 0 then .nan else
  .vec ((-(ry - ly) * z1 + -(p1.y - p0.y) * zL + (ry - ly) * p0.value + (p1.y - p0.y) * zR) / volume p0 p1 lx ly rx ry)
    (((rx - lx) * z1 + (p1.x - p0.x) * zL + -(rx - lx) * p0.value + -(p1.x - p0.x) * zR) / volume p0 p1 lx ly rx ry)

/-- `OuterProductTwoSegments` of the segments from `p` to the right and to the left point, halved and without sign,
`libs/MeshKernel/src/SamplesHessianCalculator.cpp:168-169`, `Operations.cpp:469-478`. -/
def triangle (p : Sample K) (lx ly rx ry : K) : K := 1 / 2 * |(rx - p.x) * (ly - p.y) - (ry - p.y) * (lx - p.x)|

/-- `ComputeGradient`, `libs/MeshKernel/src/SamplesHessianCalculator.cpp:115-170`. The value at the point 0 is the sample's own, the other
values are taken from the smoothed matrix. -/
def flux (s : List (Sample K)) (z : List K) (i0 i1 i0L i0R i1L i1R : Nat) : Res (Flux K) := do
  let p0 ← vget s i0
  let p1 ← vget s i1
  let z1 ← vget z i1
  if p0.x = -999 ∨ p0.y = -999 ∨ p1.x = -999 ∨ p1.y = -999 then .ok ⟨.missing, 0, 0, 0, 0⟩ else do
  let p0L ← vget s i0L
  let p1L ← vget s i1L
  let p0R ← vget s i0R
  let p1R ← vget s i1R
  let z0 ← vget z i0
  let z0L ← vget z i0L
  let z0R ← vget z i0R
  let z1L ← vget z i1L
  let z1R ← vget z i1R
  let lx := 1 / 4 * (p0.x + p1.x + p0L.x + p1L.x)
  let ly := 1 / 4 * (p0.y + p1.y + p0L.y + p1L.y)
  let rx := 1 / 4 * (p0.x + p1.x + p0R.x + p1R.x)
  let ry := 1 / 4 * (p0.y + p1.y + p0R.y + p1R.y)
  .ok ⟨if z0 = -999 ∨ z1 = -999 ∨ z0L = -999 ∨ z0R = -999 ∨ z1L = -999 ∨ z1R = -999 then .missing else
      slopeOf p0 p1 lx ly rx ry z1 (1 / 4 * (z0 + z1 + z0L + z1L)) (1 / 4 * (z0 + z1 + z0R + z1R)),
    2 * -(ry - ly), 2 * (rx - lx), triangle p0 lx ly rx ry, triangle p1 lx ly rx ry⟩

/-- `ComputeSampleGradient` with direction 0, `libs/MeshKernel/src/SamplesHessianCalculator.cpp:206-212`. -/
def fluxI (n1 n2 : Nat) (s : List (Sample K)) (z : List K) (i j : Nat) : Res (Flux K) :=
  flux s z (i + n1 * j) (i + 1 + n1 * j) (i + n1 * min (j + 1) n2) (i + n1 * max (pred j) 0) (i + 1 + n1 * min (j + 1) n2)
    (i + 1 + n1 * max (pred j) 0)

/-- `ComputeSampleGradient` with direction 1, `libs/MeshKernel/src/SamplesHessianCalculator.cpp:229-235`. The index on the right is limited
by the other dimension. -/
def fluxJ (n1 n2 : Nat) (s : List (Sample K)) (z : List K) (i j : Nat) : Res (Flux K) :=
  flux s z (i + n1 * j) (i + n1 * (j + 1)) (max (pred i) 0 + n1 * j) (min (i + 1) n2 + n1 * j) (max (pred i) 0 + n1 * (j + 1))
    (min (i + 1) n2 + n1 * (j + 1))

/-- The tests on the first component of a slope, `libs/MeshKernel/src/SamplesHessianCalculator.cpp:276-300`. -/
def skipped (env : Env K) : Slope K → Bool
  | .missing => true
  | .nan => false
  | .vec x _ => env.near x

/-- The eigenvalue of larger magnitude, `libs/MeshKernel/src/SamplesHessianCalculator.cpp:314-315`. -/
def larger (e : K × K) : K := if |e.1| > |e.2| then e.1 else e.2

/-- The value of a sample from its four control volumes, `libs/MeshKernel/src/SamplesHessianCalculator.cpp:302-315`. -/
def combine (env : Env K) (iR iL jR jL : Flux K) : Option K :=
  let area := iL.areaR + iR.areaL + jL.areaR + jR.areaL
  if area = 0 then none else
  match iR.slope, iL.slope, jR.slope, jL.slope with
  | .vec ax ay, .vec bx by', .vec cx cy, .vec dx dy =>
    some (larger (env.eig ((ax * iR.sx - bx * iL.sx + cx * jR.sx - dx * jL.sx) * (1 / area),
      (ax * iR.sy - bx * iL.sy + cx * jR.sy - dx * jL.sy) * (1 / area),
      (ay * iR.sx - by' * iL.sx + cy * jR.sx - dy * jL.sx) * (1 / area),
      (ay * iR.sy - by' * iL.sy + cy * jR.sy - dy * jL.sy) * (1 / area))) * area)
  | _, _, _, _ => none

/-- One round of the loops of `ComputeHessian`, `libs/MeshKernel/src/SamplesHessianCalculator.cpp:274-315`: `none` when the sample is passed
over. -/
def strengthAt (env : Env K) (n1 n2 : Nat) (s : List (Sample K)) (z : List K) (i j : Nat) : Res (Option (Option K)) := do
  let iR ← fluxI n1 n2 s z i j
  if skipped env iR.slope then .ok none else do
  let iL ← fluxI n1 n2 s z (i - 1) j
  if skipped env iL.slope then .ok none else do
  let jR ← fluxJ n1 n2 s z i j
  if skipped env jR.slope then .ok none else do
  let jL ← fluxJ n1 n2 s z i (j - 1)
  if skipped env jL.slope then .ok none else
  .ok (some (combine env iR iL jR jL))

/-- Setting an element, or leaving it. -/
def put {α : Type} (n1 n2 : Nat) (h : List α) (i j : Nat) : Option α → Res (List α)
  | none => .ok h
  | some a => mset n1 n2 h i j a

/-- `ComputeHessian`, `libs/MeshKernel/src/SamplesHessianCalculator.cpp:239-318`, on a matrix of zeros (`Hessian.cpp:8-22`). -/
def strengths (env : Env K) (n1 n2 : Nat) (s : List (Sample K)) (z : List K) : Res (List (Option K)) :=
  if n1 < 3 ∨ n2 < 3 then .ok (List.replicate (n1 * n2) (some 0)) else
  forRange 1 (pred n1) (fun i => forRange 1 (pred n2) (fun j h => do
    let v ← strengthAt env n1 n2 s z i j
    put n1 n2 h i j v)) (List.replicate (n1 * n2) (some 0))

/-- The loops at the end of `ComputeSamplesHessian`, `libs/MeshKernel/src/SamplesHessianCalculator.cpp:342-356`. -/
def collect (numX numY : Nat) (s : List (Sample K)) (h : List (Option K)) : Res (List (Strength K)) :=
  forRange 0 numX (fun i => forRange 0 numY (fun j r => do
    let v ← mget numY numX h j i
    let p ← vget r (numY * i + j)
    vset r (numY * i + j) { p with value := v })) (s.map fun p => ⟨p.x, p.y, some p.value⟩)

/-- `ComputeSamplesHessian`, `libs/MeshKernel/src/SamplesHessianCalculator.cpp:329-357`. The product is a `UInt`. -/
def samplesHessian (env : Env K) (s : List (Sample K)) (rounds numX numY : Nat) : Res (List (Strength K)) :=
  if numX * numY % (missing + 1) ≠ s.length then .throw else do
  let z ← values numY numX s
  let z ← smooth numY numX rounds z
  let h ← strengths env numY numX s z
  collect numX numY s h

/-- `GriddedSamples`, `libs/MeshKernelApi/include/MeshKernelApi/GriddedSamples.hpp:33-61`; the values are numbers of any of the types. -/
structure Grid (K : Type) where
  numX : Int
  numY : Int
  x0 : K
  y0 : K
  size : K
  xs : Option (List K)
  ys : Option (List K)
  values : List K

/-- One sample of `ComputeGriddedDataSamples`, `libs/MeshKernelApi/include/MeshKernelApi/Utils.hpp:241-244`, `256-259`. -/
def sampleAt (g : Grid K) (i j : Nat) : Res (Sample K) := do
  let v ← vget g.values (g.numX.toNat * i + j)
  match g.xs, g.ys with
  | some xs, some ys => do
    let x ← vget xs (g.numX.toNat * i + j)
    let y ← vget ys (g.numX.toNat * i + j)
    .ok ⟨g.x0 + x, g.y0 + y, v⟩
  | _, _ => .ok ⟨g.x0 + j * g.size, g.y0 + i * g.size, v⟩

/-- `ConvertGriddedData` and `ComputeGriddedDataSamples`, `libs/MeshKernelApi/include/MeshKernelApi/Utils.hpp:226-294`. The running index is
written out: it is `num_y * j` plus the number of rounds made by the inner loop. -/
def convert (g : Grid K) : Res (List (Sample K)) :=
  if g.numX ≤ 0 ∨ g.numY ≤ 0 then .ok [] else
  forRange 0 g.numX.toNat (fun j => forRange 0 g.numY.toNat (fun k r => do
    let p ← sampleAt g (g.numY.toNat - 1 - k) j
    vset r (g.numY.toNat * j + k) p)) (List.replicate (g.numX * g.numY).toNat ⟨-999, -999, -999⟩)

/-- An `int` passed as a `UInt`. -/
def toUInt (n : Int) : Nat := (n % (missing + 1 : Int)).toNat

/-- The samples that `mkernel_mesh2d_refine_ridges_based_on_gridded_samples` refines with,
`libs/MeshKernelApi/src/MeshKernel.cpp:2683-2689`. -/
def ridges (env : Env K) (g : Grid K) (rounds : Int) : Res (List (Strength K)) := do
  let s ← convert g
  samplesHessian env s (toUInt rounds) (toUInt g.numX) (toUInt g.numY)

end Verif.Ridge
