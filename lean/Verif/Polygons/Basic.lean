import Verif.Basic
import Mathlib.Algebra.Order.Field.Rat
import Mathlib.Algebra.Order.Field.Basic
import Mathlib.Algebra.Order.AbsoluteValue.Basic
/-!
# Points, tolerances and separators

Coordinates are rationals: every finite double is one, and the arithmetic of the model is exact.
NaN and infinite coordinates are not modelled.
-/
namespace Verif.Polygons

/-- `Point`, `libs/MeshKernel/include/MeshKernel/Point.hpp`. -/
structure Pt where
  x : ℚ
  y : ℚ
  deriving DecidableEq, Repr

/-- Default tolerance of `IsEqual`: `10 * numeric_limits<double>::epsilon()`,
`libs/MeshKernel/include/MeshKernel/Utilities/NumericFunctions.hpp:44`. -/
def tol : ℚ := 10 / 4503599627370496

/-- `IsEqual`, `libs/MeshKernel/include/MeshKernel/Utilities/NumericFunctions.hpp:44-56`. -/
def isEqual (v r : ℚ) : Bool := decide (v = r) || decide (|v - r| < tol * min |v| |r|)

/-- `operator==` of points, `libs/MeshKernel/include/MeshKernel/Point.hpp:411-414`. -/
def Pt.same (p q : Pt) : Bool := isEqual p.x q.x && isEqual p.y q.y

/-- `constants::missing::doubleValue`. -/
def missingDouble : ℚ := -999
/-- `constants::missing::innerOuterSeparator`. -/
def innerOuterSeparator : ℚ := -998

/-- `Point::IsValid`, `libs/MeshKernel/include/MeshKernel/Point.hpp:116-122`. -/
def Pt.isValid (p : Pt) : Bool := !(isEqual p.x missingDouble || isEqual p.y missingDouble)

/-- The separator between polygons, `libs/MeshKernel/src/Polygons.cpp:381`. -/
def outerSep : Pt := ⟨missingDouble, missingDouble⟩
/-- The separator between the rings of a polygon, `libs/MeshKernel/src/Polygons.cpp:382`. -/
def innerSep : Pt := ⟨innerOuterSeparator, innerOuterSeparator⟩

/-- The test of `FindIndices` on a point, `libs/MeshKernel/src/Operations.cpp:68,73`. -/
def isSep (separator : ℚ) (p : Pt) : Bool := isEqual p.x separator

@[simp] theorem isEqual_self (v : ℚ) : isEqual v v = true := by simp [isEqual]

@[simp] theorem Pt.same_self (p : Pt) : p.same p = true := by simp [Pt.same]

@[simp] theorem outerSep_isSep : isSep missingDouble outerSep = true := by simp [isSep, outerSep]
@[simp] theorem innerSep_isSep : isSep innerOuterSeparator innerSep = true := by simp [isSep, innerSep]
@[simp] theorem innerSep_not_outer : isSep missingDouble innerSep = false := by decide +kernel

end Verif.Polygons
