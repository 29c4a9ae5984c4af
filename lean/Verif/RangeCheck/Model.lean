import Verif.Basic
import Mathlib.Algebra.Order.Field.Rat
/-!
# Range checks and parameter checks

Models `libs/MeshKernel/include/MeshKernel/RangeCheck.hpp` and `Parameters.hpp`.  A check either
returns (`ok ()`) or throws a `RangeError` (`throw`).
-/
namespace Verif.RangeCheck

/-- Comparison operators of a checkable type (`std::equal_to`, `std::less`, `std::less_equal`). -/
class Cmp (T : Type) where
  eq : T → T → Bool
  lt : T → T → Bool
  le : T → T → Bool

/-- A `double`: not a number, infinities, finite values (rounding and signed zero are not
modelled). -/
inductive Dbl where
  | nan
  | ninf
  | fin (q : ℚ)
  | pinf
  deriving DecidableEq

/-- `==` on doubles. -/
def Dbl.eq : Dbl → Dbl → Bool
  | nan, _ => false
  | _, nan => false
  | a, b => decide (a = b)

/-- `<` on doubles. -/
def Dbl.lt : Dbl → Dbl → Bool
  | nan, _ => false
  | _, nan => false
  | fin a, fin b => decide (a < b)
  | ninf, ninf => false
  | ninf, _ => true
  | _, ninf => false
  | pinf, _ => false
  | _, pinf => true

/-- `<=` on doubles. -/
def Dbl.le (a b : Dbl) : Bool := a.lt b || a.eq b

/-- `std::isfinite`. -/
def Dbl.isFinite : Dbl → Bool
  | fin _ => true
  | _ => false

instance : Cmp Dbl := ⟨Dbl.eq, Dbl.lt, Dbl.le⟩
instance : Cmp Int := ⟨fun a b => decide (a = b), fun a b => decide (a < b), fun a b => decide (a ≤ b)⟩

variable {T : Type} [Cmp T]

/-- `CheckRange`, `RangeCheck.hpp:100-115`: throw when the predicate is false
(the overloads at 127-144 and 155-170 differ only in the predicate's arity).  The error message is not
modelled. -/
def check (b : Bool) : Res Unit := if !b then .throw else .ok ()

/-- `CheckEqual`, `RangeCheck.hpp:179-188`. -/
def checkEqual (v o : T) : Res Unit := check (Cmp.eq v o)
/-- `CheckNotEqual`, `RangeCheck.hpp:197-206`. -/
def checkNotEqual (v o : T) : Res Unit := check (!Cmp.eq v o)
/-- `CheckGreater`, `RangeCheck.hpp:215-224`. -/
def checkGreater (v b : T) : Res Unit := check (Cmp.lt b v)
/-- `CheckGreaterEqual`, `RangeCheck.hpp:233-242`. -/
def checkGreaterEqual (v b : T) : Res Unit := check (Cmp.le b v)
/-- `CheckLess`, `RangeCheck.hpp:251-260`. -/
def checkLess (v b : T) : Res Unit := check (Cmp.lt v b)
/-- `CheckLessEqual`, `RangeCheck.hpp:269-278`. -/
def checkLessEqual (v b : T) : Res Unit := check (Cmp.le v b)
/-- `CheckInClosedInterval`, `RangeCheck.hpp:288-304`. -/
def checkInClosed (v l u : T) : Res Unit := check (Cmp.le l v && Cmp.le v u)
/-- `CheckInOpenInterval`, `RangeCheck.hpp:331-347`. -/
def checkInOpen (v l u : T) : Res Unit := check (Cmp.lt l v && Cmp.lt v u)
/-- `CheckInRightHalfOpenInterval`, `RangeCheck.hpp:374-390`. -/
def checkInRightHalfOpen (v l u : T) : Res Unit := check (Cmp.le l v && Cmp.lt v u)
/-- `CheckInLeftHalfOpenInterval`, `RangeCheck.hpp:417-433`. -/
def checkInLeftHalfOpen (v l u : T) : Res Unit := check (Cmp.lt l v && Cmp.le v u)
/-- `CheckOutsideClosedInterval`, `RangeCheck.hpp:460-476`. -/
def checkOutsideClosed (v l u : T) : Res Unit := check (Cmp.lt v l || Cmp.lt u v)
/-- `CheckOutsideOpenInterval`, `RangeCheck.hpp:503-519`. -/
def checkOutsideOpen (v l u : T) : Res Unit := check (Cmp.le v l || Cmp.le u v)
/-- `CheckOneOf`, `RangeCheck.hpp:545-560`. -/
def checkOneOf (v : T) (l : List T) : Res Unit := check (l.any (fun i => Cmp.eq i v))
/-- `CheckNoneOf`, `RangeCheck.hpp:569-584`. -/
def checkNoneOf (v : T) (l : List T) : Res Unit := check (l.all (fun i => !Cmp.eq i v))
/-- `CheckPrecondition` with `std::isfinite`, `RangeCheck.hpp:594-606`. -/
def checkFinite (v : Dbl) : Res Unit := check v.isFinite

/-- Run checks in order; the first that fails throws. -/
def all : List (Res Unit) → Res Unit
  | [] => .ok ()
  | r :: rs => do
    let _ ← r
    all rs

/-- The double literal `q`. -/
def d (q : ℚ) : Dbl := .fin q

/-- `MakeGridParameters`, `Parameters.hpp:37-82` (the checked fields). -/
structure MakeGrid where
  numColumns : Int
  numRows : Int
  angle : Dbl
  blockSizeX : Dbl
  blockSizeY : Dbl
  radiusCurvature : Dbl
  uniformColumnsFraction : Dbl
  uniformRowsFraction : Dbl
  maximumUniformSizeColumns : Dbl
  maximumUniformSizeRows : Dbl

/-- `CheckMakeGridParameters`, `Parameters.hpp:84-107`. -/
def checkMakeGrid (p : MakeGrid) : Res Unit := all [
  checkGreater p.numColumns 0, checkGreater p.numRows 0, checkInClosed p.angle (d (-90)) (d 90),
  checkGreater p.blockSizeX (d 0), checkGreater p.blockSizeY (d 0), checkGreaterEqual p.radiusCurvature (d 0),
  checkGreaterEqual p.uniformColumnsFraction (d 0), checkGreaterEqual p.uniformRowsFraction (d 0),
  checkGreaterEqual p.maximumUniformSizeColumns (d 0), checkGreaterEqual p.maximumUniformSizeRows (d 0),
  checkFinite p.blockSizeX, checkFinite p.blockSizeY, checkFinite p.radiusCurvature,
  checkFinite p.maximumUniformSizeColumns, checkFinite p.maximumUniformSizeRows,
  checkFinite p.uniformColumnsFraction, checkFinite p.uniformRowsFraction]

/-- `CurvilinearParameters`, `Parameters.hpp:110-126`. -/
structure Curvilinear where
  mRefinement : Int
  nRefinement : Int
  smoothingIterations : Int
  smoothingParameter : Dbl
  attractionParameter : Dbl

/-- `CheckCurvilinearParameters`, `Parameters.hpp:128-135`. -/
def checkCurvilinear (p : Curvilinear) : Res Unit := all [
  checkGreater p.mRefinement 0, checkGreater p.nRefinement 0, checkGreater p.smoothingIterations 0,
  checkInClosed p.smoothingParameter (d 0) (d 1), checkGreaterEqual p.attractionParameter (d 0)]

/-- `SplinesToCurvilinearParameters`, `Parameters.hpp:138-169`. -/
structure Splines where
  aspectRatio : Dbl
  aspectRatioGrowFactor : Dbl
  averageWidth : Dbl
  curvatureAdaptedGridSpacing : Int
  growGridOutside : Int
  maximumNumFacesInUniformPart : Int
  nodesOnTopOfEachOtherTolerance : Dbl
  minCosineCrossingAngles : Dbl
  checkFrontCollisions : Int
  removeSkinnyTriangles : Int

/-- `CheckSplinesToCurvilinearParameters`, `Parameters.hpp:171-183`. -/
def checkSplines (p : Splines) : Res Unit := all [
  checkGreater p.aspectRatio (d 0), checkGreater p.aspectRatioGrowFactor (d 0), checkGreater p.averageWidth (d 0),
  checkOneOf p.curvatureAdaptedGridSpacing [0, 1], checkOneOf p.growGridOutside [0, 1],
  checkGreater p.maximumNumFacesInUniformPart 0, checkGreater p.nodesOnTopOfEachOtherTolerance (d 0),
  checkGreater p.minCosineCrossingAngles (d 0), checkOneOf p.checkFrontCollisions [0, 1],
  checkOneOf p.removeSkinnyTriangles [0, 1]]

/-- `MeshRefinementParameters`, `Parameters.hpp:186-217`. -/
structure MeshRefinement where
  maxNumRefinementIterations : Int
  refineIntersected : Int
  useMassCenterWhenRefining : Int
  minEdgeSize : Dbl
  refinementType : Int
  connectHangingNodes : Int
  accountForSamplesOutside : Int
  smoothingIterations : Int
  maxCourantTime : Dbl
  directionalRefinement : Int

/-- `CheckMeshRefinementParameters`, `Parameters.hpp:219-234`. -/
def checkMeshRefinement (p : MeshRefinement) : Res Unit := all [
  checkGreater p.maxNumRefinementIterations 0, checkOneOf p.refineIntersected [0, 1],
  checkOneOf p.useMassCenterWhenRefining [0, 1], checkGreater p.minEdgeSize (d 0),
  checkOneOf p.refinementType [1, 2, 3], checkOneOf p.connectHangingNodes [0, 1],
  checkOneOf p.accountForSamplesOutside [0, 1], checkGreaterEqual p.smoothingIterations 0,
  checkGreater p.maxCourantTime (d 0), checkOneOf p.directionalRefinement [0, 1]]

/-- `OrthogonalizationParameters`, `Parameters.hpp:237-256`. -/
structure Orthogonalization where
  outerIterations : Int
  boundaryIterations : Int
  innerIterations : Int
  orthoToSmoothing : Dbl
  orthoToSmoothingBoundary : Dbl
  arealToAngle : Dbl

/-- `CheckOrthogonalizationParameters`, `Parameters.hpp:258-266`. -/
def checkOrthogonalization (p : Orthogonalization) : Res Unit := all [
  checkGreater p.outerIterations 0, checkGreater p.boundaryIterations 0, checkGreater p.innerIterations 0,
  checkInClosed p.orthoToSmoothing (d 0) (d 1), checkInClosed p.orthoToSmoothingBoundary (d 0) (d 1),
  checkInClosed p.arealToAngle (d 0) (d 1)]

end Verif.RangeCheck
