import Verif.Transfinite.Props
import Mathlib.Data.Rat.Floor
/-!
# Grids between the sides of a polygon: concrete cases

The cases show that the theorems of `Props` apply to something, and where the calls do not do what they should.
-/
namespace Verif.Transfinite
open Verif.Curvi Verif.CurviLine

/-- The length of lines along the axes. -/
def taxi (p q : Pt ℚ) : ℚ := |p.x - q.x| + |p.y - q.y|

/-- The nodes of a grid, row by row. -/
def table (r : Res (Option (Grid (Pt ℚ)))) : Option (List (List (Pt ℚ))) :=
  match r with
  | .ok (some g) => some ((List.range g.rows).map fun n : Nat => (List.range g.cols).map fun m : Nat => g.cell n m)
  | _ => none

/-- The call reads memory that is not part of the polygon. -/
def crashes (r : Res (Option (Grid (Pt ℚ)))) : Bool :=
  match r with
  | .ub => true
  | _ => false

/-- The call reports an error. -/
def refuses (r : Res (Option (Grid (Pt ℚ)))) : Bool :=
  match r with
  | .throw => true
  | _ => false

theorem crashes_iff (r : Res (Option (Grid (Pt ℚ)))) : crashes r = true ↔ r = .ub := by
  cases r <;> simp [crashes]

theorem refuses_iff (r : Res (Option (Grid (Pt ℚ)))) : refuses r = true ↔ r = .throw := by
  cases r <;> simp [refuses]

theorem table_some {r : Res (Option (Grid (Pt ℚ)))} {t : List (List (Pt ℚ))} (h : table r = some t) :
    ∃ g, r = .ok (some g) := by
  match r, h with
  | .ok (some g), _ => exact ⟨g, rfl⟩

/-- A rectangle with two cells along each side. -/
def rectangle : List (Pt ℚ) := [⟨0, 0⟩, ⟨1, 0⟩, ⟨3, 0⟩, ⟨3, 2⟩, ⟨3, 4⟩, ⟨1, 4⟩, ⟨0, 4⟩, ⟨0, 2⟩, ⟨0, 0⟩]

theorem rectangle_closed : Closed rectangle := ⟨by decide, by decide, by decide +kernel⟩
theorem rectangle_picked : Picked rectangle 0 2 4 := by constructor <;> decide
theorem rectangle_backwards : Picked rectangle 4 2 0 := by constructor <;> decide

/-- The hypotheses of `repeated_node_refused`, `refused_iff`, `reads_outside_iff` can hold, both ways. -/
example : refuses (fromPolygon taxi rectangle 0 2 2 true) = true ∧ refuses (fromPolygon taxi rectangle 0 3 6 true) = true ∧
    count rectangle < needed (count rectangle) 0 3 6 true ∧ needed (count rectangle) 0 2 4 true ≤ count rectangle := by
  decide +kernel

/-- The hypotheses of `border_partial`, `corners_partial`, `every_node_used_partial` can hold. -/
example : (∃ g, fromPolygon taxi rectangle 0 2 4 true = .ok (some g)) ∧
    needed (count rectangle) 0 2 4 true = count rectangle := by
  refine ⟨table_some (t := [[⟨0, 0⟩, ⟨0, 2⟩, ⟨0, 4⟩], [⟨1, 0⟩, ⟨1, 2⟩, ⟨1, 4⟩], [⟨3, 0⟩, ⟨3, 2⟩, ⟨3, 4⟩]]) ?_, ?_⟩
  · decide +kernel
  · decide

theorem rectangle_valid : (outline rectangle 0 2 4 true).Valid := by
  constructor
  · show ∀ n ≤ 2, _
    decide +kernel
  · show ∀ n ≤ 2, _
    decide +kernel
  · show ∀ n ≤ 2, _
    decide +kernel
  · show ∀ n ≤ 2, _
    decide +kernel

/-- Shares of the sides of the rectangle. -/
def thirds (n : Nat) : ℚ := if n = 0 then 0 else if n = 1 then 1 / 3 else 1
def halvesOf (n : Nat) : ℚ := (n : ℚ) / 2

theorem rectangle_parallelogram :
    (outline rectangle 0 2 4 true).Parallelogram ⟨0, 0⟩ ⟨3, 0⟩ ⟨0, 4⟩ thirds halvesOf := by
  constructor
  · show ∀ n ≤ 2, _
    decide +kernel
  · show ∀ n ≤ 2, _
    decide +kernel
  · show ∀ n ≤ 2, _
    decide +kernel
  · show ∀ n ≤ 2, _
    decide +kernel
  · decide +kernel
  · show ∀ n < 2, _
    decide +kernel
  · show ∀ n < 2, _
    decide +kernel

theorem taxi_straight (p v : Pt ℚ) (t : ℚ) (ht : 0 ≤ t) : taxi p (add p (scale v t)) = t * taxi ⟨0, 0⟩ v := by
  unfold taxi add scale
  simp only
  rw [show p.x - (p.x + v.x * t) = -(v.x * t) by ring, show p.y - (p.y + v.y * t) = -(v.y * t) by ring, abs_neg, abs_neg,
    abs_mul, abs_mul, abs_of_nonneg ht, zero_sub, zero_sub, abs_neg, abs_neg]
  ring

/-- The hypotheses of `inside_partial` and `parallelogram_partial` can hold. -/
example : (outline rectangle 0 2 4 true).Even taxi ∧ ¬ Below (count rectangle) 0 2 4 ∧ 0 < taxi ⟨0, 0⟩ ⟨3, 0⟩ ∧
    0 < taxi ⟨0, 0⟩ ⟨0, 4⟩ := by
  have h1 : 0 < taxi ⟨0, 0⟩ ⟨3, 0⟩ := by decide +kernel
  have h2 : 0 < taxi ⟨0, 0⟩ ⟨0, 4⟩ := by decide +kernel
  refine ⟨parallelogram_even taxi_straight rectangle_parallelogram h1 h2, ?_, h1, h2⟩
  unfold Below
  decide

/-- A shift and a scaling. -/
def twiceAndOn : Affine ℚ := ⟨2, 0, 7, 0, 2, 9⟩

/-- The hypotheses of `moved_partial` can hold. -/
example : (∀ p q, taxi (twiceAndOn.apply p) (twiceAndOn.apply q) = 2 * taxi p q) ∧
    (outline (rectangle.map twiceAndOn.apply) 0 2 4 true).Valid ∧ (outline rectangle 0 2 4 true).Long taxi := by
  refine ⟨?_, ?_, ?_⟩
  · intro p q
    unfold taxi twiceAndOn Affine.apply
    simp only
    rw [show 2 * p.x + 0 * p.y + 7 - (2 * q.x + 0 * q.y + 7) = 2 * (p.x - q.x) by ring,
      show 0 * p.x + 2 * p.y + 9 - (0 * q.x + 2 * q.y + 9) = 2 * (p.y - q.y) by ring, abs_mul, abs_mul,
      abs_of_nonneg (show (0 : ℚ) ≤ 2 by norm_num)]
    ring
  · constructor
    · show ∀ n ≤ 2, _
      decide +kernel
    · show ∀ n ≤ 2, _
      decide +kernel
    · show ∀ n ≤ 2, _
      decide +kernel
    · show ∀ n ≤ 2, _
      decide +kernel
  · unfold Outline.Long
    decide +kernel

/-! ## Negations -/

/-- C66, negation: three nodes of the polygon, given against its order, make the call read outside the polygon, although
the same sides given the other way round are accepted. -/
theorem backwards_reads_outside : fromPolygon taxi rectangle 4 2 0 true = .ub ∧
    ∃ g, fromPolygon taxi rectangle 0 2 4 true = .ok (some g) := by
  constructor
  · apply fromPolygon_ub taxi rectangle_closed rectangle_backwards
    · decide
    · unfold Below; decide
  · exact table_some (t := [[⟨0, 0⟩, ⟨0, 2⟩, ⟨0, 4⟩], [⟨1, 0⟩, ⟨1, 2⟩, ⟨1, 4⟩], [⟨3, 0⟩, ⟨3, 2⟩, ⟨3, 4⟩]]) (by decide +kernel)

/-- C66, negation: node numbers are not compared with the number of nodes. -/
theorem numbers_not_checked : polygonCall taxi rectangle 9 2 4 1 = .ub := by
  rw [← crashes_iff]; decide +kernel

/-- Ten nodes, of which a grid with two cells along each side needs eight. -/
def bulge : List (Pt ℚ) :=
  [⟨0, 0⟩, ⟨1, 0⟩, ⟨2, 0⟩, ⟨2, 1⟩, ⟨2, 2⟩, ⟨1, 2⟩, ⟨0, 2⟩, ⟨-1, 2⟩, ⟨-1, 1⟩, ⟨0, 1⟩, ⟨0, 0⟩]

/-- C66, negation: with more nodes than needed the border does not follow the polygon: the fourth corner is neither the
end of the third side nor joined to it along the polygon, and two nodes are left out. -/
theorem skips_nodes : table (fromPolygon taxi bulge 0 2 4 true) =
      some [[⟨0, 0⟩, ⟨0, 1⟩, ⟨-1, 1⟩], [⟨1, 0⟩, ⟨1, 1⟩, ⟨1, 2⟩], [⟨2, 0⟩, ⟨2, 1⟩, ⟨2, 2⟩]] ∧
    (outline bulge 0 2 4 true).upper 0 = ⟨0, 2⟩ ∧ (⟨0, 2⟩ : Pt ℚ) ∈ bulge ∧ (⟨-1, 2⟩ : Pt ℚ) ∈ bulge := by
  refine ⟨by decide +kernel, by decide +kernel, by decide, by decide⟩

/-- A trapezoid whose opposite sides are divided differently. -/
def trapezoid : List (Pt ℚ) := [⟨0, 0⟩, ⟨1, 0⟩, ⟨2, 0⟩, ⟨8, 8⟩, ⟨26, 32⟩, ⟨25, 32⟩, ⟨-24, 32⟩, ⟨-18, 24⟩, ⟨0, 0⟩]

/-- The length of lines along the x axis and of lines with slope 4 : 3. -/
def slope (p q : Pt ℚ) : ℚ := if p.y = q.y then |p.x - q.x| else 5 / 4 * |p.y - q.y|

/-- `slope` is the length of the sides of the trapezoid. -/
theorem slope_is_length : ∀ i < 8, slope (pt trapezoid i) (pt trapezoid (i + 1)) ^ 2 =
    ((pt trapezoid i).x - (pt trapezoid (i + 1)).x) ^ 2 + ((pt trapezoid i).y - (pt trapezoid (i + 1)).y) ^ 2 ∧
    0 ≤ slope (pt trapezoid i) (pt trapezoid (i + 1)) ∧
    slope (pt trapezoid (i + 1)) (pt trapezoid i) = slope (pt trapezoid i) (pt trapezoid (i + 1)) := by
  decide +kernel

/-- C66, negation: a node of the grid can lie far outside a convex polygon: all nodes of the polygon have `0 ≤ y`, the
node inside the grid has `y < -230`. -/
theorem node_outside : (∀ p ∈ trapezoid, 0 ≤ p.y) ∧ table (fromPolygon slope trapezoid 0 2 4 true) =
      some [[⟨0, 0⟩, ⟨-18, 24⟩, ⟨-24, 32⟩], [⟨1, 0⟩, ⟨406663 / 3559, -819584 / 3559⟩, ⟨25, 32⟩],
        [⟨2, 0⟩, ⟨8, 8⟩, ⟨26, 32⟩]] ∧ (-819584 / 3559 : ℚ) < -230 := by
  refine ⟨by decide +kernel, by decide +kernel, by norm_num⟩

/-- A point given twice in a row. -/
def stutter : List (Pt ℚ) :=
  [⟨0, 0⟩, ⟨0, 0⟩, ⟨1, 0⟩, ⟨3, 0⟩, ⟨3, 2⟩, ⟨3, 4⟩, ⟨1, 4⟩, ⟨0, 4⟩, ⟨0, 2⟩, ⟨0, 0⟩]

/-- C66, negation: when a point is given twice in a row, the numbers of the nodes are not those of the points given: the
corners of the rectangle have the numbers 1, 3, 5, but asking for these does not give its grid. -/
theorem numbers_shift : (pt stutter 1 = ⟨0, 0⟩ ∧ pt stutter 3 = ⟨3, 0⟩ ∧ pt stutter 5 = ⟨3, 4⟩) ∧
    polygonCall taxi stutter 0 2 4 1 = polygonCall taxi rectangle 0 2 4 1 ∧
    (table (polygonCall taxi stutter 1 3 5 1)).map (fun t => (t.headD []).headD ⟨7, 7⟩) = some ⟨1, 0⟩ := by
  refine ⟨by decide +kernel, ?_, by decide +kernel⟩
  have h : convert stutter = convert rectangle := by decide +kernel
  unfold polygonCall
  rw [h]

/-! ## Triangles -/

/-- A triangle with three cells along each side. -/
def nine : List (Pt ℚ) :=
  [⟨0, 0⟩, ⟨1, 0⟩, ⟨2, 0⟩, ⟨3, 0⟩, ⟨2, 1⟩, ⟨1, 2⟩, ⟨0, 3⟩, ⟨0, 2⟩, ⟨0, 1⟩, ⟨0, 0⟩]

/-- C66, negation: with an odd number of nodes the grid of a triangle leaves out nodes of the polygon. -/
theorem odd_leaves_out : table (fromTriangle taxi nine 0 3 6) =
      some [[⟨0, 0⟩, ⟨0, 2⟩, ⟨0, 3⟩], [⟨1, 0⟩, ⟨1, 1⟩, ⟨1, 2⟩], [⟨-999, -999⟩, ⟨2, 0⟩, ⟨3, 0⟩]] ∧
    (⟨2, 1⟩ : Pt ℚ) ∈ nine ∧ (⟨0, 1⟩ : Pt ℚ) ∈ nine := by
  refine ⟨by decide +kernel, by decide, by decide⟩

/-- A triangle with four cells along each side. -/
def twelve : List (Pt ℚ) :=
  [⟨0, 0⟩, ⟨1, 0⟩, ⟨2, 0⟩, ⟨3, 0⟩, ⟨4, 0⟩, ⟨3, 1⟩, ⟨2, 2⟩, ⟨1, 3⟩, ⟨0, 4⟩, ⟨0, 3⟩, ⟨0, 2⟩, ⟨0, 1⟩, ⟨0, 0⟩]

/-- The hypotheses of `triangle_outcome`, `triangle_follows_partial`, `triangle_cells` and `middle_inside_partial` can
hold. -/
example : Closed twelve ∧ Picked twelve 0 4 8 ∧ InOrder (count twelve) 0 4 8 ∧ Balanced (count twelve) 0 4 8 ∧
    count twelve % 2 = 0 ∧ (cut (count twelve) 0 4 8).y ≤ (cut (count twelve) 0 4 8).x + (cut (count twelve) 0 4 8).z ∧
    (table (fromTriangle taxi twelve 0 4 8)).isSome = true := by
  refine ⟨⟨by decide, by decide, by decide +kernel⟩, by constructor <;> decide, ?_, ?_, by decide, by decide, by decide +kernel⟩
  · unfold InOrder; decide
  · unfold Balanced; decide

/-- Nodes in the wrong order are refused. -/
example : refuses (fromTriangle taxi twelve 0 8 4) = true := by decide +kernel

/-- A triangle with two cells on one side and eleven on the others. -/
def slim : List (Pt ℚ) :=
  (List.range 12).map (fun i : Nat => (⟨i, 0⟩ : Pt ℚ)) ++ [⟨11 / 2, 11 / 2⟩] ++
    (List.range 12).map (fun i : Nat => (⟨0, 11 - i⟩ : Pt ℚ))

/-- C66, negation: the point where the three blocks of a triangle meet can lie outside it. -/
theorem middle_outside : (∀ p ∈ slim, 0 ≤ p.x) ∧ (table (fromTriangle taxi slim 0 11 13)).map
      (fun t => (t.getD 1 []).getD 1 ⟨0, 0⟩) = some ⟨-527 / 33, 65 / 3⟩ := by
  refine ⟨by decide +kernel, by decide +kernel⟩

/-- The hypotheses of `calls_partial` can hold. -/
example : (∀ p ∈ rectangle, valid p = true) ∧ ∀ i, i + 1 < rectangle.length → pt rectangle i ≠ pt rectangle (i + 1) := by
  refine ⟨by decide +kernel, ?_⟩
  have : ∀ i < 8, pt rectangle i ≠ pt rectangle (i + 1) := by decide +kernel
  intro i hi
  exact this i (by have : rectangle.length = 9 := rfl; omega)

end Verif.Transfinite
