import Verif.Basic
import Mathlib.Algebra.Order.Field.Basic
import Mathlib.Algebra.Order.Field.Rat
/-!
# Averaging strategies

Models `libs/MeshKernel/src/AveragingStrategies/*.cpp` in exact arithmetic over an ordered field.
`std::numeric_limits<double>::lowest()` and `max()` are the parameters `lowest` and `top`.  The
distance from the interpolation point to each sample (`ComputeDistance`,
`ComputeSquaredDistance`) is part of the sample, so the model covers every projection.
-/
namespace Verif.Averaging

/-- A sample value, with its distance to the interpolation point. -/
structure Sample (K : Type) where
  value : K
  dist : K
  deriving DecidableEq, Repr

/-- A result: a number, or the NaN that a division of zero by zero gives. -/
inductive Val (K : Type) where
  | num (v : K)
  | nan
  deriving DecidableEq, Repr

variable {K : Type} [Field K] [LinearOrder K]

/-- `constants::missing::doubleValue`. -/
def missingValue : K := -999

/-- Division of doubles as needed here: `0 / 0` is NaN.  (Only zero is ever divided by zero.) -/
def divide (a b : K) : Val K := if b = 0 then .nan else .num (a / b)

/-- `SimpleAveragingStrategy::Calculate`, `SimpleAveragingStrategy.cpp:37-44`. -/
def simple (minNum : Nat) (ss : List (Sample K)) : Val K :=
  let result := ss.foldl (fun v s => v + s.value) 0
  if ss.length ≥ minNum then divide result (ss.length : K) else .num missingValue

/-- Loop of `ClosestAveragingStrategy::Calculate`, `ClosestAveragingStrategy.cpp:41-49`; the
comparison of squared distances is that of the distances. -/
def closestLoop : K → K → List (Sample K) → K
  | result, _, [] => result
  | result, best, s :: ss => if s.dist < best then closestLoop s.value s.dist ss else closestLoop result best ss

/-- `ClosestAveragingStrategy::Calculate`, `ClosestAveragingStrategy.cpp:35-52`. -/
def closest (top : K) (ss : List (Sample K)) : K := closestLoop missingValue top ss

/-- `MaxAveragingStrategy::Calculate`, `MaxAveragingStrategy.cpp:33-44`. -/
def maximum (lowest : K) (ss : List (Sample K)) : K :=
  let result := ss.foldl (fun r s => if r < s.value then s.value else r) lowest
  if result ≠ lowest then result else missingValue

/-- `MinAveragingStrategy::Calculate`, `MinAveragingStrategy.cpp:33-44`. -/
def minimum (top : K) (ss : List (Sample K)) : K :=
  let result := ss.foldl (fun r s => if s.value < r then s.value else r) top
  if result ≠ top then result else missingValue

/-- `std::abs`. -/
def stdAbs (v : K) : K := if v < 0 then -v else v

/-- `MinAbsAveragingStrategy::Calculate`, `MinAbsAveragingStrategy.cpp:33-44`. -/
def minimumAbs (top : K) (ss : List (Sample K)) : K :=
  let result := ss.foldl (fun r s => if stdAbs s.value < r then stdAbs s.value else r) top
  if result ≠ top then result else missingValue

/-- The weight of a sample, `InverseWeightedAveragingStrategy.cpp:45`. -/
def weight (s : Sample K) : K := 1 / (if (1 / 100 : K) < s.dist then s.dist else 1 / 100)

/-- `InverseWeightedAveragingStrategy::Calculate`, `InverseWeightedAveragingStrategy.cpp:37-51`; the
last line compares the sum of the weights with the number of samples. -/
def inverseWeighted (minNum : Nat) (ss : List (Sample K)) : Val K :=
  let acc := ss.foldl (fun a s => (a.1 + weight s, a.2 + weight s * s.value)) ((0 : K), (0 : K))
  if acc.1 ≥ (minNum : K) then divide acc.2 acc.1 else .num missingValue

end Verif.Averaging
