import Verif.Polygons.AreaModel
import Verif.Polygons.ContainsLemmas
import Mathlib.Tactic.NormNum
/-!
# Property C24: polygon area and centre of mass are geometric
-/
namespace Verif.Polygons

/-! ## Specification -/

/-- Signed area by the shoelace formula, positive for anti-clockwise corners. -/
def shoelace (corners : List Pt) : ℚ :=
  ((sides (ringOf corners)).map fun s => s.1.x * s.2.y - s.2.x * s.1.y).sum / 2

/-- Centroid of the polygon with these corners (textbook formula). -/
def centroid (corners : List Pt) : Pt :=
  ⟨((sides (ringOf corners)).map fun s => (s.1.x + s.2.x) * (s.1.x * s.2.y - s.2.x * s.1.y)).sum / (6 * shoelace corners),
   ((sides (ringOf corners)).map fun s => (s.1.y + s.2.y) * (s.1.x * s.2.y - s.2.x * s.1.y)).sum / (6 * shoelace corners)⟩

/-! ## Supporting lemmas -/

/-- Sum over the sides. -/
def sumSides (l : List Pt) (f : Pt → Pt → ℚ) : ℚ := ((sides l).map fun s => f s.1 s.2).sum

theorem sumSides_add (l : List Pt) (f g : Pt → Pt → ℚ) :
    sumSides l (fun a b => f a b + g a b) = sumSides l f + sumSides l g := by
  unfold sumSides
  induction sides l with
  | nil => simp
  | cons s S ih => simp only [List.map_cons, List.sum_cons, ih]; ring

theorem sumSides_mul (l : List Pt) (c : ℚ) (f : Pt → Pt → ℚ) :
    sumSides l (fun a b => c * f a b) = c * sumSides l f := by
  unfold sumSides
  induction sides l with
  | nil => simp
  | cons s S ih => simp only [List.map_cons, List.sum_cons, ih]; ring

theorem sumSides_congr (l : List Pt) {f g : Pt → Pt → ℚ} (h : ∀ a b, f a b = g a b) :
    sumSides l f = sumSides l g := by
  have : f = g := by funext a b; exact h a b
  rw [this]

theorem sumSides_tele_path (l : List Pt) (h : Pt → ℚ) (a z : Pt) (ha : l.head? = some a) (hz : l.getLast? = some z) :
    sumSides l (fun a b => h b - h a) = h z - h a := by
  induction l generalizing a with
  | nil => simp at ha
  | cons x l ih =>
    simp only [List.head?_cons, Option.some.injEq] at ha
    subst ha
    cases l with
    | nil =>
      simp only [List.getLast?_singleton, Option.some.injEq] at hz
      subst hz; simp [sumSides, sides]
    | cons y l =>
      have e : sides (x :: y :: l) = (x, y) :: sides (y :: l) := rfl
      have := ih y rfl (by simpa using hz)
      unfold sumSides at this ⊢
      rw [e, List.map_cons, List.sum_cons, this]
      ring

theorem sumSides_tele (vs : List Pt) (h : Pt → ℚ) : sumSides (ringOf vs) (fun a b => h b - h a) = 0 := by
  cases vs with
  | nil => simp [sumSides, ringOf, sides]
  | cons a l =>
    rw [sumSides_tele_path (ringOf (a :: l)) h a a (by simp [ringOf]) (by simp [ringOf, List.getLast?_cons])]
    ring

/-- The contributions of a side in the code. -/
def xdsOf (r a b : Pt) : ℚ := xds (delta a b) (middle (delta r a) (delta r b))
def midOf (r a b : Pt) : Pt := middle (delta r a) (delta r b)

theorem areaLoop_eq (r first : Pt) (l : List Pt) (acc : ℚ × Pt) :
    areaLoop r first l acc
      = (acc.1 + 1 / 2 * sumSides (l ++ if l = [] then [] else [first]) (xdsOf r),
         ⟨acc.2.x + sumSides (l ++ if l = [] then [] else [first]) (fun a b => xdsOf r a b * (midOf r a b).x),
          acc.2.y + sumSides (l ++ if l = [] then [] else [first]) (fun a b => xdsOf r a b * (midOf r a b).y)⟩) := by
  induction l generalizing acc with
  | nil => simp [areaLoop, sumSides, sides]
  | cons a l ih =>
    cases l with
    | nil => simp [areaLoop, areaStep, sumSides, sides, xdsOf, midOf, Pt.add, Pt.scale]
    | cons b l =>
      rw [areaLoop, ih]
      simp only [reduceCtorEq, if_false]
      have e : sides (a :: b :: l ++ [first]) = (a, b) :: sides (b :: l ++ [first]) := rfl
      simp only [sumSides, e, List.map_cons, List.sum_cons, areaStep, Pt.add, Pt.scale, xdsOf, midOf]
      refine Prod.ext ?_ ?_
      · simp only; ring
      · simp only [Pt.mk.injEq]; constructor <;> ring

theorem areaSums_eq (r : Pt) (vs : List Pt) :
    areaSums r vs = (1 / 2 * sumSides (ringOf vs) (xdsOf r),
      ⟨sumSides (ringOf vs) (fun a b => xdsOf r a b * (midOf r a b).x),
       sumSides (ringOf vs) (fun a b => xdsOf r a b * (midOf r a b).y)⟩) := by
  have general : ∀ first rest, areaLoop r first (first :: rest) (0, ⟨0, 0⟩)
      = (1 / 2 * sumSides (ringOf (first :: rest)) (xdsOf r),
      ⟨sumSides (ringOf (first :: rest)) (fun a b => xdsOf r a b * (midOf r a b).x),
       sumSides (ringOf (first :: rest)) (fun a b => xdsOf r a b * (midOf r a b).y)⟩) := by
    intro first rest
    rw [areaLoop_eq]
    simp [ringOf]
  unfold areaSums
  split
  · rename_i p0 p1 p2
    simp only [areaTriangle, ringOf, sumSides, sides, Pt.add, Pt.scale, xdsOf, midOf, List.head?_cons, Option.toList_some,
      List.cons_append, List.nil_append, List.tail_cons, List.zip_cons_cons, List.zip_nil_right, List.map_cons,
      List.map_nil, List.sum_cons, List.sum_nil]
    refine Prod.ext ?_ ?_
    · simp only; ring
    · simp only [Pt.mk.injEq]; constructor <;> ring
  · rename_i p0 p1 p2 p3
    simp only [areaQuad, ringOf, sumSides, sides, Pt.add, Pt.scale, xdsOf, midOf, List.head?_cons, Option.toList_some,
      List.cons_append, List.nil_append, List.tail_cons, List.zip_cons_cons, List.zip_nil_right, List.map_cons,
      List.map_nil, List.sum_cons, List.sum_nil]
    refine Prod.ext ?_ ?_
    · simp only; ring
    · simp only [Pt.mk.injEq]; constructor <;> ring
  · simp [ringOf, sumSides, sides]
  · exact general _ _

/-- Twice the area of the triangle that a side makes with the origin. -/
def shoe (a b : Pt) : ℚ := a.x * b.y - b.x * a.y

theorem shoelace_eq (vs : List Pt) : shoelace vs = sumSides (ringOf vs) shoe / 2 := rfl

theorem areaSums_area (r : Pt) (vs : List Pt) : (areaSums r vs).1 = shoelace vs := by
  rw [areaSums_eq, shoelace_eq]
  have : sumSides (ringOf vs) (xdsOf r) = sumSides (ringOf vs) shoe := by
    have e : sumSides (ringOf vs) (xdsOf r) = sumSides (ringOf vs) (fun a b => shoe a b +
        ((fun q : Pt => q.x * r.y - q.y * r.x) b - (fun q : Pt => q.x * r.y - q.y * r.x) a)) := by
      apply sumSides_congr; intro a b
      simp only [xdsOf, xds, delta, middle, shoe]; ring
    rw [e, sumSides_add, sumSides_tele, add_zero]
  simp only [this]; ring

theorem areaSums_x (r : Pt) (vs : List Pt) : (areaSums r vs).2.x
    = sumSides (ringOf vs) (fun a b => (a.x + b.x) * shoe a b) / 2 - 3 * r.x * shoelace vs := by
  rw [areaSums_eq, shoelace_eq]
  have e : sumSides (ringOf vs) (fun a b => xdsOf r a b * (midOf r a b).x)
      = sumSides (ringOf vs) (fun a b => (1 / 2) * ((a.x + b.x) * shoe a b) + ((-(3 / 2) * r.x) * shoe a b +
        ((fun q : Pt => -r.x * q.x * q.y / 2 + r.y * q.x * q.x / 2 + r.x * r.x * q.y - r.x * r.y * q.x) b -
         (fun q : Pt => -r.x * q.x * q.y / 2 + r.y * q.x * q.x / 2 + r.x * r.x * q.y - r.x * r.y * q.x) a))) := by
    apply sumSides_congr; intro a b
    simp only [xdsOf, midOf, xds, delta, middle, shoe]; ring
  simp only [e]
  rw [sumSides_add, sumSides_add, sumSides_tele, sumSides_mul, sumSides_mul]; ring

theorem areaSums_y (r : Pt) (vs : List Pt) : (areaSums r vs).2.y
    = sumSides (ringOf vs) (fun a b => (a.y + b.y) * shoe a b) / 2 - 3 * r.y * shoelace vs := by
  rw [areaSums_eq, shoelace_eq]
  have e : sumSides (ringOf vs) (fun a b => xdsOf r a b * (midOf r a b).y)
      = sumSides (ringOf vs) (fun a b => (1 / 2) * ((a.y + b.y) * shoe a b) + ((-(3 / 2) * r.y) * shoe a b +
        ((fun q : Pt => r.y * q.x * q.y / 2 - r.x * q.y * q.y / 2 + r.x * r.y * q.y - r.y * r.y * q.x) b -
         (fun q : Pt => r.y * q.x * q.y / 2 - r.x * q.y * q.y / 2 + r.x * r.y * q.y - r.y * r.y * q.x) a))) := by
    apply sumSides_congr; intro a b
    simp only [xdsOf, midOf, xds, delta, middle, shoe]; ring
  simp only [e]
  rw [sumSides_add, sumSides_add, sumSides_tele, sumSides_mul, sumSides_mul]; ring

theorem areaFinish_eq (r : Pt) (vs : List Pt) (h : minArea ≤ |shoelace vs|) :
    areaFinish r (areaSums r vs) = (|shoelace vs|, centroid vs,
      if shoelace vs > 0 then .antiClockwise else .clockwise) := by
  have h0 : shoelace vs ≠ 0 := by
    intro h0
    rw [h0, abs_zero] at h
    exact absurd h (by unfold minArea; norm_num)
  unfold areaFinish
  simp only [areaSums_area, not_lt.2 h, if_false, Pt.add, Pt.scale, areaSums_x, areaSums_y, centroid]
  congr 2
  rw [Pt.mk.injEq]
  constructor
  · rw [show (List.map (fun s : Pt × Pt => (s.1.x + s.2.x) * (s.1.x * s.2.y - s.2.x * s.1.y)) (sides (ringOf vs))).sum
      = sumSides (ringOf vs) (fun a b => (a.x + b.x) * shoe a b) from rfl]
    field_simp; ring
  · rw [show (List.map (fun s : Pt × Pt => (s.1.y + s.2.y) * (s.1.x * s.2.y - s.2.x * s.1.y)) (sides (ringOf vs))).sum
      = sumSides (ringOf vs) (fun a b => (a.y + b.y) * shoe a b) from rfl]
    field_simp; ring

theorem sumSides_perm {l k : List Pt} (h : (sides l).Perm (sides k)) (f : Pt → Pt → ℚ) :
    sumSides l f = sumSides k f := (h.map _).sum_eq

theorem sumSides_reverse (l : List Pt) (f : Pt → Pt → ℚ) :
    sumSides l.reverse f = sumSides l (fun a b => f b a) := by
  unfold sumSides
  rw [sides_reverse, List.map_reverse, (List.reverse_perm _).sum_eq, List.map_map]
  rfl

/-! ## Theorems -/

/-- **C24, partial.** The reported area is the shoelace area, the reported centre the centroid, and the
direction the sign of the shoelace area, for every polygon of at least three corners whose area
reaches `minArea`.  In particular they do not depend on the reference point of the code, and the
special code for three and four corners agrees with the general code.
Missing: polygons with an area below 1e-8, see `tiny_polygon_misreported`. -/
theorem area_is_shoelace_partial (corners : List Pt) (last : Pt) (h3 : 3 ≤ corners.length)
    (h : minArea ≤ |shoelace corners|) :
    faceArea (corners ++ [last]) = .ok (|shoelace corners|, centroid corners,
      if shoelace corners > 0 then .antiClockwise else .clockwise) := by
  unfold faceArea
  rw [if_neg (by simp; omega), List.dropLast_concat, areaFinish_eq _ _ h]

/-- **C24.** In all cases the area is the larger of the shoelace area and `minArea`. -/
theorem area_is_shoelace_or_minimum (corners : List Pt) (last : Pt) (h3 : 3 ≤ corners.length) :
    ∃ c d, faceArea (corners ++ [last]) = .ok (max |shoelace corners| minArea, c, d) ∧
      (d = .antiClockwise ↔ 0 < shoelace corners) := by
  have hm : (0 : ℚ) < minArea := by unfold minArea; norm_num
  unfold faceArea
  rw [if_neg (by simp; omega), List.dropLast_concat]
  refine ⟨(areaFinish (referencePoint (corners ++ [last])) (areaSums (referencePoint (corners ++ [last])) corners)).2.1,
    (areaFinish (referencePoint (corners ++ [last])) (areaSums (referencePoint (corners ++ [last])) corners)).2.2, ?_, ?_⟩
  · rw [areaFinish]
    simp only [areaSums_area]
    congr 2
    split_ifs with h
    · rw [abs_of_pos hm, max_eq_right h.le]
    · rw [max_eq_left (not_lt.1 h)]
  · by_cases h : 0 < shoelace corners <;> simp [areaFinish, areaSums_area, h]

/-- **C24.** The sums of the special code for triangles and quadrilaterals, and of the general code,
are the same function of the sides. -/
theorem special_code_agrees (r first : Pt) (rest : List Pt) :
    areaSums r (first :: rest) = areaLoop r first (first :: rest) (0, ⟨0, 0⟩) := by
  rw [areaSums_eq, areaLoop_eq]
  simp [ringOf]

/-- **C24.** The result does not depend on the vertex the polygon starts with. -/
theorem area_rotate (a b : Pt) (vs : List Pt) : shoelace (b :: vs ++ [a]) = shoelace (a :: b :: vs) ∧
    centroid (b :: vs ++ [a]) = centroid (a :: b :: vs) := by
  have hp := (sides_ringOf_rotate a b vs).symm
  have h1 : shoelace (b :: vs ++ [a]) = shoelace (a :: b :: vs) := by
    rw [shoelace_eq, shoelace_eq, sumSides_perm hp]
  refine ⟨h1, ?_⟩
  unfold centroid
  rw [h1, (hp.map _).sum_eq, (hp.map _).sum_eq]

/-- **C24, partial.** Reversing the orientation keeps area and centre and reverses the direction. -/
theorem area_reverse_partial (a : Pt) (vs : List Pt) (h3 : 2 ≤ vs.length) (last : Pt)
    (h : minArea ≤ |shoelace (a :: vs)|) :
    ∃ A c d d', faceArea (a :: vs ++ [last]) = .ok (A, c, d) ∧ faceArea (a :: vs.reverse ++ [last]) = .ok (A, c, d') ∧
      d ≠ d' := by
  have hring : ringOf (a :: vs.reverse) = (ringOf (a :: vs)).reverse := by simp [ringOf]
  have hs : shoelace (a :: vs.reverse) = - shoelace (a :: vs) := by
    rw [shoelace_eq, shoelace_eq, hring, sumSides_reverse]
    have : sumSides (ringOf (a :: vs)) (fun a b => shoe b a) = sumSides (ringOf (a :: vs)) (fun a b => (-1) * shoe a b) := by
      apply sumSides_congr; intro a b; unfold shoe; ring
    rw [this, sumSides_mul]; ring
  have hc : centroid (a :: vs.reverse) = centroid (a :: vs) := by
    unfold centroid
    rw [hs, hring]
    have ex : sumSides (ringOf (a :: vs)).reverse (fun a b => (a.x + b.x) * shoe a b)
        = - sumSides (ringOf (a :: vs)) (fun a b => (a.x + b.x) * shoe a b) := by
      rw [sumSides_reverse]
      have : sumSides (ringOf (a :: vs)) (fun a b => (b.x + a.x) * shoe b a)
          = sumSides (ringOf (a :: vs)) (fun a b => (-1) * ((a.x + b.x) * shoe a b)) := by
        apply sumSides_congr; intro a b; unfold shoe; ring
      rw [this, sumSides_mul]; ring
    have ey : sumSides (ringOf (a :: vs)).reverse (fun a b => (a.y + b.y) * shoe a b)
        = - sumSides (ringOf (a :: vs)) (fun a b => (a.y + b.y) * shoe a b) := by
      rw [sumSides_reverse]
      have : sumSides (ringOf (a :: vs)) (fun a b => (b.y + a.y) * shoe b a)
          = sumSides (ringOf (a :: vs)) (fun a b => (-1) * ((a.y + b.y) * shoe a b)) := by
        apply sumSides_congr; intro a b; unfold shoe; ring
      rw [this, sumSides_mul]; ring
    rw [Pt.mk.injEq]
    constructor
    · show sumSides (ringOf (a :: vs)).reverse (fun a b => (a.x + b.x) * shoe a b) / _
        = sumSides (ringOf (a :: vs)) (fun a b => (a.x + b.x) * shoe a b) / _
      rw [ex, show 6 * -shoelace (a :: vs) = -(6 * shoelace (a :: vs)) by ring, neg_div_neg_eq]
    · show sumSides (ringOf (a :: vs)).reverse (fun a b => (a.y + b.y) * shoe a b) / _
        = sumSides (ringOf (a :: vs)) (fun a b => (a.y + b.y) * shoe a b) / _
      rw [ey, show 6 * -shoelace (a :: vs) = -(6 * shoelace (a :: vs)) by ring, neg_div_neg_eq]
  have h' : minArea ≤ |shoelace (a :: vs.reverse)| := by rw [hs, abs_neg]; exact h
  refine ⟨_, _, _, if -shoelace (a :: vs) > 0 then .antiClockwise else .clockwise,
    area_is_shoelace_partial (a :: vs) last (by simp; omega) h, ?_, ?_⟩
  · rw [area_is_shoelace_partial (a :: vs.reverse) last (by simp; omega) h', hs, abs_neg, hc]
  · have h0 : shoelace (a :: vs) ≠ 0 := by
      intro h0; rw [h0, abs_zero] at h; exact absurd h (by unfold minArea; norm_num)
    rcases lt_or_gt_of_ne h0 with hn | hp
    · rw [if_neg (not_lt.2 hn.le), if_pos (by linarith)]; decide
    · rw [if_pos hp, if_neg (by linarith)]; decide

/-- Moving a list of points. -/
def shift (v : Pt) (l : List Pt) : List Pt := l.map fun p => p.add v

theorem sides_shift (v : Pt) (l : List Pt) : sides (shift v l) = (sides l).map fun s => (s.1.add v, s.2.add v) := by
  induction l with
  | nil => rfl
  | cons a l ih =>
    cases l with
    | nil => rfl
    | cons b l =>
      have e : sides (a :: b :: l) = (a, b) :: sides (b :: l) := rfl
      have e2 : sides (shift v (a :: b :: l)) = (a.add v, b.add v) :: sides (shift v (b :: l)) := rfl
      rw [e, e2, ih]; rfl

theorem ringOf_shift (v : Pt) (l : List Pt) : ringOf (shift v l) = shift v (ringOf l) := by
  cases l with
  | nil => rfl
  | cons a l => simp [ringOf, shift]

theorem sumSides_shift (v : Pt) (l : List Pt) (f : Pt → Pt → ℚ) :
    sumSides (ringOf (shift v l)) f = sumSides (ringOf l) (fun a b => f (a.add v) (b.add v)) := by
  unfold sumSides
  rw [ringOf_shift, sides_shift, List.map_map]; rfl

/-- **C24, partial.** The centre moves with the polygon, the area and the direction stay. -/
theorem area_translate_partial (v : Pt) (corners : List Pt) (last : Pt) (h3 : 3 ≤ corners.length)
    (h : minArea ≤ |shoelace corners|) :
    ∃ A c d, faceArea (corners ++ [last]) = .ok (A, c, d) ∧
      faceArea (shift v (corners ++ [last])) = .ok (A, c.add v, d) := by
  have h0 : shoelace corners ≠ 0 := by
    intro h0; rw [h0, abs_zero] at h; exact absurd h (by unfold minArea; norm_num)
  have hs : shoelace (shift v corners) = shoelace corners := by
    rw [shoelace_eq, shoelace_eq, sumSides_shift]
    have e : sumSides (ringOf corners) (fun a b => shoe (a.add v) (b.add v))
        = sumSides (ringOf corners) (fun a b => shoe a b +
          ((fun q : Pt => v.x * q.y - v.y * q.x) b - (fun q : Pt => v.x * q.y - v.y * q.x) a)) := by
      apply sumSides_congr; intro a b; simp only [shoe, Pt.add]; ring
    rw [e, sumSides_add, sumSides_tele, add_zero]
  have hc : centroid (shift v corners) = (centroid corners).add v := by
    unfold centroid
    simp only [Pt.add]
    rw [hs]
    have hS : sumSides (ringOf corners) shoe = 2 * shoelace corners := by rw [shoelace_eq]; ring
    have ex : sumSides (ringOf (shift v corners)) (fun a b => (a.x + b.x) * shoe a b)
        = sumSides (ringOf corners) (fun a b => (a.x + b.x) * shoe a b) + 6 * shoelace corners * v.x := by
      rw [sumSides_shift]
      have e : sumSides (ringOf corners) (fun a b => ((a.add v).x + (b.add v).x) * shoe (a.add v) (b.add v))
          = sumSides (ringOf corners) (fun a b => (a.x + b.x) * shoe a b + ((3 * v.x) * shoe a b +
            ((fun q : Pt => v.x * q.x * q.y - v.y * q.x * q.x + 2 * v.x * v.x * q.y - 2 * v.x * v.y * q.x) b -
             (fun q : Pt => v.x * q.x * q.y - v.y * q.x * q.x + 2 * v.x * v.x * q.y - 2 * v.x * v.y * q.x) a))) := by
        apply sumSides_congr; intro a b; simp only [shoe, Pt.add]; ring
      rw [e, sumSides_add, sumSides_add, sumSides_tele, sumSides_mul, hS]; ring
    have ey : sumSides (ringOf (shift v corners)) (fun a b => (a.y + b.y) * shoe a b)
        = sumSides (ringOf corners) (fun a b => (a.y + b.y) * shoe a b) + 6 * shoelace corners * v.y := by
      rw [sumSides_shift]
      have e : sumSides (ringOf corners) (fun a b => ((a.add v).y + (b.add v).y) * shoe (a.add v) (b.add v))
          = sumSides (ringOf corners) (fun a b => (a.y + b.y) * shoe a b + ((3 * v.y) * shoe a b +
            ((fun q : Pt => -v.y * q.x * q.y + v.x * q.y * q.y + 2 * v.x * v.y * q.y - 2 * v.y * v.y * q.x) b -
             (fun q : Pt => -v.y * q.x * q.y + v.x * q.y * q.y + 2 * v.x * v.y * q.y - 2 * v.y * v.y * q.x) a))) := by
        apply sumSides_congr; intro a b; simp only [shoe, Pt.add]; ring
      rw [e, sumSides_add, sumSides_add, sumSides_tele, sumSides_mul, hS]; ring
    rw [Pt.mk.injEq]
    constructor
    · show sumSides (ringOf (shift v corners)) (fun a b => (a.x + b.x) * shoe a b) / _
        = sumSides (ringOf corners) (fun a b => (a.x + b.x) * shoe a b) / _ + v.x
      rw [ex]; field_simp
    · show sumSides (ringOf (shift v corners)) (fun a b => (a.y + b.y) * shoe a b) / _
        = sumSides (ringOf corners) (fun a b => (a.y + b.y) * shoe a b) / _ + v.y
      rw [ey]; field_simp
  refine ⟨_, _, _, area_is_shoelace_partial corners last h3 h, ?_⟩
  have e : shift v (corners ++ [last]) = shift v corners ++ [last.add v] := by simp [shift]
  rw [e, area_is_shoelace_partial (shift v corners) (last.add v) (by simpa [shift] using h3) (by rw [hs]; exact h), hs, hc]

/-- The nodes with indices in range. -/
theorem gatherNodes_ok (nodes : List Pt) (is : List Nat) (ps : List Pt) (h : is.map (nodes[·]?) = ps.map some) :
    gatherNodes nodes is = .ok ps := by
  induction is generalizing ps with
  | nil => cases ps with
    | nil => rfl
    | cons => simp at h
  | cons i is ih =>
    cases ps with
    | nil => simp at h
    | cons p ps =>
      simp only [List.map_cons, List.cons.injEq] at h
      rw [gatherNodes, vget, h.1, Res.ok_bind, ih ps h.2, Res.ok_bind]

theorem referencePoint_close (a : Pt) (vs : List Pt) : referencePoint (a :: vs ++ [a]) = referencePoint (a :: vs) := by
  unfold referencePoint
  rw [List.foldl_append, List.foldl_cons, List.foldl_nil]
  have key : ∀ (vs : List Pt) (r : Pt), r.x ≤ a.x → |r.y| ≤ |a.y| →
      (vs.foldl refStep r).x ≤ a.x ∧ |(vs.foldl refStep r).y| ≤ |a.y| := by
    intro vs
    induction vs with
    | nil => intro r h1 h2; exact ⟨h1, h2⟩
    | cons v vs ih =>
      intro r h1 h2
      rw [List.foldl_cons]
      refine ih _ (le_trans (min_le_right _ _) h1) ?_
      unfold refStep
      simp only
      split_ifs with h
      · exact le_trans h.le h2
      · exact h2
  have h0 : (refStep ⟨dblMax, dblMax⟩ a).x ≤ a.x := min_le_left _ _
  have h1 : |(refStep ⟨dblMax, dblMax⟩ a).y| ≤ |a.y| := by
    unfold refStep; simp only
    split_ifs with h
    · exact le_refl _
    · exact not_lt.1 h
  obtain ⟨k1, k2⟩ := key vs _ h0 h1
  rw [List.foldl_cons]
  generalize List.foldl refStep (refStep ⟨dblMax, dblMax⟩ a) vs = r at k1 k2
  unfold refStep
  rw [min_eq_right k1, if_neg (not_lt.2 k2)]

/-- **C24.** The version for node indices agrees with the version for points: closed index lists, and
open ones without the closing node. -/
theorem indexed_area_agrees (nodes : List Pt) (indices : List Nat) (a : Pt) (vs : List Pt) (h2 : 2 ≤ vs.length) :
    (indices.map (nodes[·]?) = (a :: vs ++ [a]).map some →
      faceAreaIndexed nodes indices true = faceArea (a :: vs ++ [a])) ∧
    (indices.map (nodes[·]?) = (a :: vs).map some →
      faceAreaIndexed nodes indices false = faceArea (a :: vs ++ [a])) := by
  have hf : faceArea (a :: vs ++ [a]) = .ok (areaFinish (referencePoint (a :: vs))
      (areaSums (referencePoint (a :: vs)) (a :: vs))) := by
    unfold faceArea
    rw [if_neg (by simp; omega), List.dropLast_concat, referencePoint_close]
  constructor
  · intro h
    have hl := congrArg List.length h
    simp only [List.length_map, List.length_append, List.length_cons, List.length_nil] at hl
    unfold faceAreaIndexed
    rw [if_neg (by omega), gatherNodes_ok nodes indices _ h, Res.ok_bind, hf]
    simp only [if_true, List.dropLast_concat, referencePoint_close]
  · intro h
    have hl := congrArg List.length h
    simp only [List.length_map, List.length_cons] at hl
    unfold faceAreaIndexed
    rw [if_neg (by omega), gatherNodes_ok nodes indices _ h, Res.ok_bind, hf]
    rfl

/-- A right triangle with legs of 1/16384, given clockwise: its area is 1.86e-9. -/
def tiny : List Pt := [⟨0, 0⟩, ⟨0, 1 / 16384⟩, ⟨1 / 16384, 0⟩]

/-- **C24, violated.** A polygon with an area below 1e-8 is reported with the area 1e-8, and its centre
is computed with that area and sign: for this clockwise triangle with corners of non-negative
coordinates the centre has negative coordinates. -/
theorem tiny_polygon_misreported : |shoelace tiny| < minArea ∧ (centroid tiny).x = 1 / 49152 ∧
    ∃ c d, faceArea (tiny ++ [⟨0, 0⟩]) = .ok (minArea, c, d) ∧ c.x < 0 ∧ c.y < 0 := by
  refine ⟨by decide +kernel, by decide +kernel, ?_⟩
  refine ⟨⟨-390625 / 103079215104, -390625 / 103079215104⟩, .clockwise, ?_, by norm_num, by norm_num⟩
  decide +kernel

/-! ## The hypotheses can be met -/

example : faceArea [⟨0, 0⟩, ⟨8, 0⟩, ⟨8, 8⟩, ⟨4, 2⟩, ⟨0, 8⟩, ⟨0, 0⟩]
    = .ok (40, ⟨4, 14 / 5⟩, .antiClockwise) := by
  have := area_is_shoelace_partial [⟨0, 0⟩, ⟨8, 0⟩, ⟨8, 8⟩, ⟨4, 2⟩, ⟨0, 8⟩] ⟨0, 0⟩ (by decide) (by decide +kernel)
  rw [show shoelace [⟨0, 0⟩, ⟨8, 0⟩, ⟨8, 8⟩, ⟨4, 2⟩, ⟨0, 8⟩] = 40 by decide +kernel,
    show centroid [⟨0, 0⟩, ⟨8, 0⟩, ⟨8, 8⟩, ⟨4, 2⟩, ⟨0, 8⟩] = ⟨4, 14 / 5⟩ by decide +kernel] at this
  simpa using this

example : faceAreaIndexed [⟨0, 0⟩, ⟨8, 0⟩, ⟨9, 9⟩, ⟨0, 8⟩] [0, 1, 3] false
    = .ok (32, ⟨8 / 3, 8 / 3⟩, .antiClockwise) := by
  have h := (indexed_area_agrees [⟨0, 0⟩, ⟨8, 0⟩, ⟨9, 9⟩, ⟨0, 8⟩] [0, 1, 3] ⟨0, 0⟩ [⟨8, 0⟩, ⟨0, 8⟩] (by decide)).2 rfl
  rw [h]; decide +kernel

end Verif.Polygons
