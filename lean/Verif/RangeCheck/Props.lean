import Verif.RangeCheck.Model
import Mathlib.Order.Interval.Set.Basic
import Mathlib.Tactic.NormNum
/-!
# C30: parameter checks accept precisely the documented ranges
-/
namespace Verif.RangeCheck

theorem check_ok (b : Bool) : check b = .ok () ↔ b = true := by cases b <;> simp [check]

/-- A check never does anything but return or throw. -/
theorem check_throw (b : Bool) : check b = .throw ↔ b = false := by cases b <;> simp [check]

/-- A comparison that agrees with a linear order. -/
class LawfulCmp (T : Type) [Cmp T] [LinearOrder T] : Prop where
  eq_iff : ∀ a b : T, Cmp.eq a b = true ↔ a = b
  lt_iff : ∀ a b : T, Cmp.lt a b = true ↔ a < b
  le_iff : ∀ a b : T, Cmp.le a b = true ↔ a ≤ b

instance : LawfulCmp Int := ⟨by simp [Cmp.eq], by simp [Cmp.lt], by simp [Cmp.le]⟩

section
variable {T : Type} [Cmp T] [LinearOrder T] [LawfulCmp T] (v l u : T)

/-- Interval checks accept precisely the members of the interval they name. -/
theorem interval_checks_exact :
    (checkInClosed v l u = .ok () ↔ v ∈ Set.Icc l u) ∧ (checkInOpen v l u = .ok () ↔ v ∈ Set.Ioo l u) ∧
    (checkInRightHalfOpen v l u = .ok () ↔ v ∈ Set.Ico l u) ∧
    (checkInLeftHalfOpen v l u = .ok () ↔ v ∈ Set.Ioc l u) ∧
    (checkOutsideClosed v l u = .ok () ↔ v ∉ Set.Icc l u) ∧
    (checkOutsideOpen v l u = .ok () ↔ v ∉ Set.Ioo l u) := by
  refine ⟨?_, ?_, ?_, ?_, ?_, ?_⟩ <;>
    simp only [checkInClosed, checkInOpen, checkInRightHalfOpen, checkInLeftHalfOpen, checkOutsideClosed,
      checkOutsideOpen, check_ok, Bool.and_eq_true, Bool.or_eq_true, LawfulCmp.lt_iff, LawfulCmp.le_iff, Set.mem_Icc,
      Set.mem_Ioo, Set.mem_Ico, Set.mem_Ioc, not_and_or, not_le, not_lt]

/-- One-sided checks accept precisely the rays they name. -/
theorem ray_checks_exact :
    (checkGreater v l = .ok () ↔ v ∈ Set.Ioi l) ∧ (checkGreaterEqual v l = .ok () ↔ v ∈ Set.Ici l) ∧
    (checkLess v l = .ok () ↔ v ∈ Set.Iio l) ∧ (checkLessEqual v l = .ok () ↔ v ∈ Set.Iic l) ∧
    (checkEqual v l = .ok () ↔ v = l) ∧ (checkNotEqual v l = .ok () ↔ v ≠ l) := by
  refine ⟨?_, ?_, ?_, ?_, ?_, ?_⟩ <;>
    simp only [checkGreater, checkGreaterEqual, checkLess, checkLessEqual, checkEqual, checkNotEqual, check_ok,
      LawfulCmp.lt_iff, LawfulCmp.le_iff, LawfulCmp.eq_iff, Set.mem_Ioi, Set.mem_Ici, Set.mem_Iio, Set.mem_Iic,
      Bool.not_eq_true', Bool.eq_false_iff, ne_eq]

/-- Membership checks. -/
theorem list_checks_exact (vs : List T) :
    (checkOneOf v vs = .ok () ↔ v ∈ vs) ∧ (checkNoneOf v vs = .ok () ↔ v ∉ vs) := by
  constructor
  · simp [checkOneOf, check_ok, LawfulCmp.eq_iff]
  · simp only [checkNoneOf, check_ok, List.all_eq_true, Bool.not_eq_true', Bool.eq_false_iff, ne_eq, LawfulCmp.eq_iff]
    exact ⟨fun h hv => h v hv rfl, fun h i hi he => h (he ▸ hi)⟩

theorem throw_iff (r : Bool) : check r = .throw ↔ ¬ check r = .ok () := by cases r <;> simp [check]

/-- Complementary checks: exactly one of the two accepts. -/
theorem checks_complementary :
    (checkInClosed v l u = .ok () ↔ checkOutsideClosed v l u = .throw) ∧
    (checkInOpen v l u = .ok () ↔ checkOutsideOpen v l u = .throw) := by
  have h := interval_checks_exact v l u
  constructor
  · rw [h.1, show (checkOutsideClosed v l u = .throw) ↔ _ from throw_iff _]
    exact ⟨fun hv hn => h.2.2.2.2.1.1 hn hv, fun hn => by
      by_contra hv; exact hn (h.2.2.2.2.1.2 hv)⟩
  · rw [h.2.1, show (checkOutsideOpen v l u = .throw) ↔ _ from throw_iff _]
    exact ⟨fun hv hn => h.2.2.2.2.2.1 hn hv, fun hn => by
      by_contra hv; exact hn (h.2.2.2.2.2.2 hv)⟩

/-- The interval checks differ only at the end points. -/
theorem checks_differ_only_at_ends (hl : v ≠ l) (hu : v ≠ u) :
    (checkInClosed v l u = checkInOpen v l u) ∧ (checkInClosed v l u = checkInRightHalfOpen v l u) ∧
    (checkInClosed v l u = checkInLeftHalfOpen v l u) ∧ (checkOutsideClosed v l u = checkOutsideOpen v l u) := by
  have h1 : Cmp.le l v = Cmp.lt l v := by
    rw [Bool.eq_iff_iff, LawfulCmp.le_iff, LawfulCmp.lt_iff]; exact ⟨fun h => lt_of_le_of_ne h hl.symm, le_of_lt⟩
  have h2 : Cmp.le v u = Cmp.lt v u := by
    rw [Bool.eq_iff_iff, LawfulCmp.le_iff, LawfulCmp.lt_iff]; exact ⟨fun h => lt_of_le_of_ne h hu, le_of_lt⟩
  have h3 : Cmp.le v l = Cmp.lt v l := by
    rw [Bool.eq_iff_iff, LawfulCmp.le_iff, LawfulCmp.lt_iff]; exact ⟨fun h => lt_of_le_of_ne h hl, le_of_lt⟩
  have h4 : Cmp.le u v = Cmp.lt u v := by
    rw [Bool.eq_iff_iff, LawfulCmp.le_iff, LawfulCmp.lt_iff]; exact ⟨fun h => lt_of_le_of_ne h hu.symm, le_of_lt⟩
  simp [checkInClosed, checkInOpen, checkInRightHalfOpen, checkInLeftHalfOpen, checkOutsideClosed, checkOutsideOpen,
    h1, h2, h3, h4]

end

example : checkInClosed (5 : Int) 0 5 = .ok () ∧ checkInRightHalfOpen (5 : Int) 0 5 = .throw := by decide

/-! ### Doubles, including NaN and infinities -/

/-- On finite doubles the comparisons are those of the rationals. -/
theorem dbl_fin (a b : ℚ) : (Cmp.lt (Dbl.fin a) (Dbl.fin b) = true ↔ a < b) ∧
    (Cmp.le (Dbl.fin a) (Dbl.fin b) = true ↔ a ≤ b) ∧ (Cmp.eq (Dbl.fin a) (Dbl.fin b) = true ↔ a = b) := by
  refine ⟨by simp [Cmp.lt, Dbl.lt], ?_, by simp [Cmp.eq, Dbl.eq]⟩
  simp [Cmp.le, Dbl.le, Dbl.lt, Dbl.eq, le_iff_lt_or_eq]

/-- A value that is not a number is rejected by every interval and one-sided check, including the
"outside" checks, which are therefore not complementary on doubles. -/
theorem nan_rejected (l u : Dbl) (vs : List Dbl) :
    checkInClosed .nan l u = .throw ∧ checkInOpen .nan l u = .throw ∧ checkInRightHalfOpen .nan l u = .throw ∧
    checkInLeftHalfOpen .nan l u = .throw ∧ checkOutsideClosed .nan l u = .throw ∧
    checkOutsideOpen .nan l u = .throw ∧ checkGreater .nan l = .throw ∧ checkGreaterEqual .nan l = .throw ∧
    checkLess .nan l = .throw ∧ checkLessEqual .nan l = .throw ∧ checkEqual .nan l = .throw ∧
    checkOneOf .nan vs = .throw := by
  have h1 : ∀ x, Dbl.lt x .nan = false := by intro x; cases x <;> rfl
  have h2 : ∀ x, Dbl.lt .nan x = false := by intro x; cases x <;> rfl
  have h3 : ∀ x, Dbl.eq x .nan = false := by intro x; cases x <;> rfl
  have h4 : ∀ x, Dbl.eq .nan x = false := by intro x; cases x <;> rfl
  simp [checkInClosed, checkInOpen, checkInRightHalfOpen, checkInLeftHalfOpen, checkOutsideClosed, checkOutsideOpen,
    checkGreater, checkGreaterEqual, checkLess, checkLessEqual, checkEqual, checkOneOf, Cmp.lt, Cmp.le, Cmp.eq, Dbl.le,
    h1, h2, h3, h4, check]

/-- But "not equal" and "none of" accept it. -/
theorem nan_accepted_by_negative_checks (o : Dbl) (vs : List Dbl) :
    checkNotEqual .nan o = .ok () ∧ checkNoneOf .nan vs = .ok () := by
  have h3 : ∀ x, Dbl.eq x .nan = false := by intro x; cases x <;> rfl
  have h4 : ∀ x, Dbl.eq .nan x = false := by intro x; cases x <;> rfl
  simp [checkNotEqual, checkNoneOf, Cmp.eq, h3, h4, check]

/-! ### Parameter structures -/

theorem all_ok (l : List (Res Unit)) : all l = .ok () ↔ ∀ r ∈ l, r = .ok () := by
  induction l with
  | nil => simp [all]
  | cons r l ih => cases r <;> simp [all, ih]

theorem dbl_gt (v : Dbl) (q : ℚ) : checkGreater v (d q) = .ok () ↔ (∃ x, v = .fin x ∧ q < x) ∨ v = .pinf := by
  cases v <;> simp [checkGreater, check_ok, Cmp.lt, Dbl.lt, d]

theorem dbl_ge (v : Dbl) (q : ℚ) : checkGreaterEqual v (d q) = .ok () ↔ (∃ x, v = .fin x ∧ q ≤ x) ∨ v = .pinf := by
  cases v <;> simp [checkGreaterEqual, check_ok, Cmp.le, Dbl.le, Dbl.lt, Dbl.eq, d, le_iff_lt_or_eq]

theorem dbl_closed (v : Dbl) (p q : ℚ) :
    checkInClosed v (d p) (d q) = .ok () ↔ ∃ x, v = .fin x ∧ p ≤ x ∧ x ≤ q := by
  cases v <;> simp [checkInClosed, check_ok, Cmp.le, Dbl.le, Dbl.lt, Dbl.eq, d, le_iff_lt_or_eq]

theorem dbl_finite (v : Dbl) : checkFinite v = .ok () ↔ ∃ x, v = .fin x := by
  cases v <;> simp [checkFinite, check_ok, Dbl.isFinite]

theorem int_gt (v b : Int) : checkGreater v b = .ok () ↔ b < v := (ray_checks_exact v b).1
theorem int_ge (v b : Int) : checkGreaterEqual v b = .ok () ↔ b ≤ v := (ray_checks_exact v b).2.1
theorem int_oneOf (v : Int) (l : List Int) : checkOneOf v l = .ok () ↔ v ∈ l := (list_checks_exact v l).1

/-- `v` is a finite double greater than zero. -/
def PosFinite (v : Dbl) : Prop := ∃ x : ℚ, v = .fin x ∧ 0 < x
/-- `v` is a finite double not less than zero. -/
def NonnegFinite (v : Dbl) : Prop := ∃ x : ℚ, v = .fin x ∧ 0 ≤ x
/-- `v` is a finite double in `[p, q]`. -/
def Between (p q : ℚ) (v : Dbl) : Prop := ∃ x : ℚ, v = .fin x ∧ p ≤ x ∧ x ≤ q

/-- Grid generation accepts exactly: positive numbers of rows and columns, an angle between -90 and
90 degrees, finite positive block sizes, finite nonnegative other parameters. -/
theorem make_grid_parameters_exact (p : MakeGrid) : checkMakeGrid p = .ok () ↔
    0 < p.numColumns ∧ 0 < p.numRows ∧ Between (-90) 90 p.angle ∧ PosFinite p.blockSizeX ∧ PosFinite p.blockSizeY ∧
    NonnegFinite p.radiusCurvature ∧ NonnegFinite p.uniformColumnsFraction ∧ NonnegFinite p.uniformRowsFraction ∧
    NonnegFinite p.maximumUniformSizeColumns ∧ NonnegFinite p.maximumUniformSizeRows := by
  have gtf : ∀ v : Dbl, (((∃ x, v = .fin x ∧ (0 : ℚ) < x) ∨ v = .pinf) ∧ ∃ x, v = .fin x) ↔ PosFinite v := by
    intro v; cases v <;> simp [PosFinite]
  have gef : ∀ v : Dbl, (((∃ x, v = .fin x ∧ (0 : ℚ) ≤ x) ∨ v = .pinf) ∧ ∃ x, v = .fin x) ↔ NonnegFinite v := by
    intro v; cases v <;> simp [NonnegFinite]
  unfold checkMakeGrid
  rw [all_ok]
  simp only [List.mem_cons, List.not_mem_nil, or_false, forall_eq_or_imp, forall_eq, int_gt, dbl_gt, dbl_ge, dbl_closed,
    dbl_finite]
  constructor
  · rintro ⟨a1, a2, a3, a4, a5, a6, a7, a8, a9, a10, f1, f2, f3, f4, f5, f6, f7⟩
    exact ⟨a1, a2, a3, (gtf _).1 ⟨a4, f1⟩, (gtf _).1 ⟨a5, f2⟩, (gef _).1 ⟨a6, f3⟩, (gef _).1 ⟨a7, f6⟩,
      (gef _).1 ⟨a8, f7⟩, (gef _).1 ⟨a9, f4⟩, (gef _).1 ⟨a10, f5⟩⟩
  · rintro ⟨a1, a2, a3, a4, a5, a6, a7, a8, a9, a10⟩
    exact ⟨a1, a2, a3, ((gtf _).2 a4).1, ((gtf _).2 a5).1, ((gef _).2 a6).1, ((gef _).2 a7).1, ((gef _).2 a8).1,
      ((gef _).2 a9).1, ((gef _).2 a10).1, ((gtf _).2 a4).2, ((gtf _).2 a5).2, ((gef _).2 a6).2, ((gef _).2 a9).2,
      ((gef _).2 a10).2, ((gef _).2 a7).2, ((gef _).2 a8).2⟩

example : checkMakeGrid ⟨3, 3, d 30, d 10, d 10, d 0, d 0, d 0, d 5, d 5⟩ = .ok () := by
  rw [make_grid_parameters_exact]
  refine ⟨by decide, by decide, ⟨30, rfl, by norm_num, by norm_num⟩, ⟨10, rfl, by norm_num⟩, ⟨10, rfl, by norm_num⟩,
    ⟨0, rfl, le_refl _⟩, ⟨0, rfl, le_refl _⟩, ⟨0, rfl, le_refl _⟩, ⟨5, rfl, by norm_num⟩, ⟨5, rfl, by norm_num⟩⟩

/-- Orthogonalisation parameters. -/
theorem orthogonalization_parameters_exact (p : Orthogonalization) : checkOrthogonalization p = .ok () ↔
    0 < p.outerIterations ∧ 0 < p.boundaryIterations ∧ 0 < p.innerIterations ∧ Between 0 1 p.orthoToSmoothing ∧
    Between 0 1 p.orthoToSmoothingBoundary ∧ Between 0 1 p.arealToAngle := by
  unfold checkOrthogonalization
  rw [all_ok]
  simp only [List.mem_cons, List.not_mem_nil, or_false, forall_eq_or_imp, forall_eq, int_gt, dbl_closed, Between]

/-- Curvilinear grid parameters; unlike for grid generation, an infinite attraction parameter is
accepted. -/
theorem curvilinear_parameters_exact (p : Curvilinear) : checkCurvilinear p = .ok () ↔
    0 < p.mRefinement ∧ 0 < p.nRefinement ∧ 0 < p.smoothingIterations ∧ Between 0 1 p.smoothingParameter ∧
    (NonnegFinite p.attractionParameter ∨ p.attractionParameter = .pinf) := by
  unfold checkCurvilinear
  rw [all_ok]
  simp only [List.mem_cons, List.not_mem_nil, or_false, forall_eq_or_imp, forall_eq, int_gt, dbl_ge, dbl_closed,
    Between, NonnegFinite]

/-- Spline parameters: flags are 0 or 1, sizes are positive; infinities are accepted. -/
theorem spline_parameters_exact (p : Splines) : checkSplines p = .ok () ↔
    (PosFinite p.aspectRatio ∨ p.aspectRatio = .pinf) ∧
    (PosFinite p.aspectRatioGrowFactor ∨ p.aspectRatioGrowFactor = .pinf) ∧
    (PosFinite p.averageWidth ∨ p.averageWidth = .pinf) ∧
    (p.curvatureAdaptedGridSpacing = 0 ∨ p.curvatureAdaptedGridSpacing = 1) ∧
    (p.growGridOutside = 0 ∨ p.growGridOutside = 1) ∧ 0 < p.maximumNumFacesInUniformPart ∧
    (PosFinite p.nodesOnTopOfEachOtherTolerance ∨ p.nodesOnTopOfEachOtherTolerance = .pinf) ∧
    (PosFinite p.minCosineCrossingAngles ∨ p.minCosineCrossingAngles = .pinf) ∧
    (p.checkFrontCollisions = 0 ∨ p.checkFrontCollisions = 1) ∧
    (p.removeSkinnyTriangles = 0 ∨ p.removeSkinnyTriangles = 1) := by
  unfold checkSplines
  rw [all_ok]
  simp only [List.mem_cons, List.not_mem_nil, or_false, forall_eq_or_imp, forall_eq, int_gt, int_oneOf, dbl_gt,
    PosFinite]

example : checkSplines ⟨d 1, d 1, d 500, 1, 0, 5, d 1, .pinf, 0, 1⟩ = .ok () := by
  rw [spline_parameters_exact]
  refine ⟨Or.inl ⟨1, rfl, by norm_num⟩, Or.inl ⟨1, rfl, by norm_num⟩, Or.inl ⟨500, rfl, by norm_num⟩, Or.inr rfl,
    Or.inl rfl, by decide, Or.inl ⟨1, rfl, by norm_num⟩, Or.inr rfl, Or.inl rfl, Or.inr rfl⟩

/-- Refinement parameters: flags are 0 or 1, the type is 1, 2 or 3, sizes are positive; an infinite
edge size or Courant time is accepted. -/
theorem refinement_parameters_exact (p : MeshRefinement) : checkMeshRefinement p = .ok () ↔
    0 < p.maxNumRefinementIterations ∧ (p.refineIntersected = 0 ∨ p.refineIntersected = 1) ∧
    (p.useMassCenterWhenRefining = 0 ∨ p.useMassCenterWhenRefining = 1) ∧
    (PosFinite p.minEdgeSize ∨ p.minEdgeSize = .pinf) ∧
    (p.refinementType = 1 ∨ p.refinementType = 2 ∨ p.refinementType = 3) ∧
    (p.connectHangingNodes = 0 ∨ p.connectHangingNodes = 1) ∧
    (p.accountForSamplesOutside = 0 ∨ p.accountForSamplesOutside = 1) ∧ 0 ≤ p.smoothingIterations ∧
    (PosFinite p.maxCourantTime ∨ p.maxCourantTime = .pinf) ∧
    (p.directionalRefinement = 0 ∨ p.directionalRefinement = 1) := by
  unfold checkMeshRefinement
  rw [all_ok]
  simp only [List.mem_cons, List.not_mem_nil, or_false, forall_eq_or_imp, forall_eq, int_gt, int_ge, int_oneOf, dbl_gt,
    PosFinite]

example : checkMeshRefinement ⟨10, 0, 1, d (1 / 2), 2, 1, 0, 5, d 120, 0⟩ = .ok () := by
  rw [refinement_parameters_exact]
  refine ⟨by decide, Or.inl rfl, Or.inr rfl, Or.inl ⟨1 / 2, rfl, by norm_num⟩, Or.inr (Or.inl rfl), Or.inr rfl,
    Or.inl rfl, by decide, Or.inl ⟨120, rfl, by norm_num⟩, Or.inl rfl⟩

end Verif.RangeCheck
