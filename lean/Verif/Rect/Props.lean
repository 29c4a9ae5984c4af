import Verif.Rect.Lemmas
import Verif.Curvi.DeleteProps
/-!
# C35: Cartesian rectangular grids have the requested shape

With numbers of columns and rows, on an extension and in a polygon.  `cos² + sin² = 1` is all that is used of the
angle; the real functions satisfy it (`real_rectangles`).
-/
namespace Verif.Rect
open Verif.Curvi
variable {K : Type} [Field K] [LinearOrder K]

/-- **C35**, numbers of columns and rows: for positive numbers and sizes and an angle between -90 and 90 degrees the grid
has the requested shape. -/
theorem rectangular_grid (t : Trig K) (tol : K) (cols rows : Int) (ox oy a dx dy : K) (ht : t.cos a ^ 2 + t.sin a ^ 2 = 1)
    (hc : 0 < cols) (hr : 0 < rows) (hc2 : cols < 2147483647) (hr2 : rows < 2147483647) (ha : -90 < a ∧ a < 90) (hx : 0 < dx) (hy : 0 < dy) :
    ∃ g, createRectangular .cartesian t tol cols rows ox oy a dx dy = .ok g ∧
      Rectangles t g cols.toNat rows.toNat ⟨ox, oy⟩ a dx dy := by
  refine ⟨cartesianGrid t cols.toNat rows.toNat ox oy a dx dy, ?_, cartesianGrid_rectangles t _ _ ox oy a dx dy ht⟩
  unfold createRectangular checkProjection
  rw [if_neg (by simp), Res.ok_bind]
  unfold compute
  rw [if_neg (not_not.2 hc), if_neg (not_not.2 hr), if_neg (not_not.2 ha), if_neg (not_not.2 hx), if_neg (not_not.2 hy)]
  have h := matrixFor_cartesian t tol cols.toNat rows.toNat (by omega) (by omega) (by omega) (by omega) ox oy a dx dy
  rwa [Int.toNat_of_nonneg (by omega), Int.toNat_of_nonneg (by omega)] at h

/-- All other arguments are rejected. -/
theorem rectangular_grid_rejects (p : Proj) (t : Trig K) (tol : K) (cols rows : Int) (ox oy a dx dy : K)
    (h : cols ≤ 0 ∨ rows ≤ 0 ∨ a ≤ -90 ∨ 90 ≤ a ∨ dx ≤ 0 ∨ dy ≤ 0 ∨ p = .sphericalAccurate) :
    createRectangular p t tol cols rows ox oy a dx dy = .throw := by
  unfold createRectangular checkProjection
  by_cases hp : p ≠ .cartesian ∧ p ≠ .spherical
  · rw [if_pos hp]; rfl
  · rw [if_neg hp, Res.ok_bind]
    unfold compute
    split
    · rfl
    · next h1 =>
      split
      · rfl
      · next h2 =>
        split
        · rfl
        · next h3 =>
          split
          · rfl
          · next h4 =>
            split
            · rfl
            · next h5 =>
              exfalso
              simp only [not_not] at h1 h2 h3 h4 h5
              rcases h with h | h | h | h | h | h | h
              · omega
              · omega
              · exact absurd h3.1 (not_lt.2 h)
              · exact absurd h3.2 (not_lt.2 h)
              · exact absurd h4 (not_lt.2 h)
              · exact absurd h5 (not_lt.2 h)
              · subst h; exact hp ⟨by simp, by simp⟩

/-- The real angle functions. -/
theorem realTrig_sq (a : ℝ) : realTrig.cos a ^ 2 + realTrig.sin a ^ 2 = 1 := Real.cos_sq_add_sin_sq _

/-- **C35** for real angles. -/
theorem real_rectangles (tol : ℝ) (cols rows : Int) (ox oy a dx dy : ℝ) (hc : 0 < cols) (hr : 0 < rows)
    (hc2 : cols < 2147483647) (hr2 : rows < 2147483647) (ha : -90 < a ∧ a < 90) (hx : 0 < dx) (hy : 0 < dy) :
    ∃ g, createRectangular .cartesian realTrig tol cols rows ox oy a dx dy = .ok g ∧
      Rectangles realTrig g cols.toNat rows.toNat ⟨ox, oy⟩ a dx dy :=
  rectangular_grid realTrig tol cols rows ox oy a dx dy (realTrig_sq a) hc hr hc2 hr2 ha hx hy

variable [IsStrictOrderedRing K]

/-- A node on the missing value is an invalid node: the second column of this grid is lost. -/
theorem node_at_missing_value_is_invalid (t : Trig K) (tol : K) (h0 : t.cos 0 = 1) (h1 : t.sin 0 = 0) :
    ∃ g, createRectangular .cartesian t tol 2 1 (-1000) 0 0 1 1 = .ok g ∧ Rectangles t g 2 1 ⟨-1000, 0⟩ 0 1 1 ∧
      ∀ n, valid (g.node n 1) = false := by
  have ht : t.cos 0 ^ 2 + t.sin 0 ^ 2 = 1 := by rw [h0, h1]; ring
  refine ⟨cartesianGrid t 2 1 (-1000) 0 0 1 1, ?_, cartesianGrid_rectangles t 2 1 (-1000) 0 0 1 1 ht, ?_⟩
  · unfold createRectangular checkProjection
    rw [if_neg (by simp), Res.ok_bind]
    unfold compute
    have h90 : (-90 : K) < 0 ∧ (0 : K) < 90 := ⟨by linarith [show (0:K) < 90 by norm_num], by norm_num⟩
    rw [if_neg (by decide), if_neg (by decide), if_neg (not_not.2 h90), if_neg (by simp), if_neg (by simp)]
    exact matrixFor_cartesian t tol 2 1 (by decide) (by decide) (by decide) (by decide) _ _ _ _ _
  · intro n
    rw [cartesianGrid_node]
    show (!(decide (_ = _) || decide (_ = _))) = false
    have : (cartesianPoint t (-1000) 0 0 1 1 n 1).x = -999 := by
      simp only [cartesianPoint, h0, h1]; push_cast; ring
    rw [this]; simp

variable [FloorRing K]

omit [IsStrictOrderedRing K] in
theorem ceil_bounds {x : K} (h0 : 0 < x) (h1 : x ≤ 2147483646) : 1 ≤ ⌈x⌉ ∧ ⌈x⌉ ≤ 2147483646 := by
  constructor
  · have := Int.ceil_pos.2 h0; omega
  · exact Int.ceil_le.2 (by push_cast; exact h1)

theorem ceil_mul {w d : K} (hd : 0 < d) : w ≤ (⌈w / d⌉ : K) * d ∧ (⌈w / d⌉ : K) * d < w + d := by
  constructor
  · have := Int.le_ceil (w / d)
    rwa [div_le_iff₀ hd] at this
  · have := Int.ceil_lt_add_one (w / d)
    have h2 := mul_lt_mul_of_pos_right this hd
    have e : (w / d + 1) * d = w + d := by field_simp
    rwa [e] at h2

omit [LinearOrder K] [IsStrictOrderedRing K] [FloorRing K] in
theorem toNat_cast {z : Int} (h : 0 ≤ z) : ((z.toNat : Nat) : K) = (z : K) := by
  have := Int.toNat_of_nonneg h
  rw [← Int.cast_natCast, this]

/-- The number of rows of a Cartesian grid. -/
theorem computeNumRows_cartesian (t : Trig K) (tol minY maxY dy : K) (hd : 0 < dy) (h1 : dy ≤ |maxY - minY|)
    (h2 : |maxY - minY| / dy ≤ 2147483646) :
    ∃ rows : Nat, computeNumRows .cartesian t tol minY maxY dy = .ok rows ∧ 1 ≤ rows ∧ rows < 2147483647 ∧
      |maxY - minY| ≤ rows * dy ∧ rows * dy < |maxY - minY| + dy := by
  have hw : 0 < |maxY - minY| / dy := div_pos (lt_of_lt_of_le hd h1) hd
  obtain ⟨b1, b2⟩ := ceil_bounds hw h2
  have hm := ceil_mul (w := |maxY - minY|) hd
  refine ⟨⌈|maxY - minY| / dy⌉.toNat, ?_, by omega, by omega, ?_, ?_⟩
  · unfold computeNumRows
    rw [if_neg (not_lt.2 h1)]
    simp only
    rw [toInt_ok (by omega) (by omega), Res.ok_bind]
    congr 1; omega
  · rw [toNat_cast (by omega)]; exact hm.1
  · rw [toNat_cast (by omega)]; exact hm.2

/-- **C35**, extension: the grid starts at the origin, has blocks of the requested size parallel to the axes, covers the
extension and ends less than one block beyond it. -/
theorem extension_grid (t : Trig K) (tol ox oy dx dy ux uy : K) (h0 : t.cos 0 = 1) (h0' : t.sin 0 = 0)
    (hx : 0 < dx) (hy : 0 < dy) (hux : ox < ux) (huy : dy ≤ uy - oy)
    (hbx : (ux - ox) / dx ≤ 2147483646) (hby : (uy - oy) / dy ≤ 2147483646) :
    ∃ g cols rows, createOnExtension .cartesian t tol ox oy 0 dx dy ux uy = .ok g ∧
      Rectangles t g cols rows ⟨ox, oy⟩ 0 dx dy ∧ (∀ n m, g.node n m = ⟨ox + m * dx, oy + n * dy⟩) ∧
      (ux ≤ ox + cols * dx ∧ ox + cols * dx < ux + dx) ∧ (uy ≤ oy + rows * dy ∧ oy + rows * dy < uy + dy) ∧
      Covers g ⟨⟨ox, oy⟩, ⟨ux, uy⟩⟩ := by
  have ht : t.cos 0 ^ 2 + t.sin 0 ^ 2 = 1 := by rw [h0, h0']; ring
  have hw : 0 < (ux - ox) / dx := div_pos (by linarith) hx
  obtain ⟨b1, b2⟩ := ceil_bounds hw hbx
  have habs : |uy - oy| = uy - oy := abs_of_nonneg (by linarith)
  obtain ⟨rows, r1, r2, r3, r4, r5⟩ := computeNumRows_cartesian t tol oy uy dy hy (by rw [habs]; exact huy) (by rw [habs]; exact hby)
  rw [habs] at r4 r5
  have hm := ceil_mul (w := ux - ox) hx
  rw [← toNat_cast (K := K) (z := ⌈(ux - ox) / dx⌉) (by omega)] at hm
  generalize hcols : ⌈(ux - ox) / dx⌉.toNat = cols at hm
  have hcz : ⌈(ux - ox) / dx⌉ = (cols : Int) := by omega
  have hnode : ∀ n m, (cartesianGrid t cols rows ox oy 0 dx dy).node n m = ⟨ox + m * dx, oy + n * dy⟩ := by
    intro n m
    rw [cartesianGrid_node]
    unfold cartesianPoint
    rw [h0, h0']
    congr 1 <;> ring
  refine ⟨cartesianGrid t cols rows ox oy 0 dx dy, cols, rows, ?_, cartesianGrid_rectangles t _ _ ox oy 0 dx dy ht, hnode,
    ⟨by linarith [hm.1], by linarith [hm.2]⟩, ⟨by linarith, by linarith⟩, ?_⟩
  · unfold createOnExtension checkProjection
    rw [if_neg (by simp), Res.ok_bind]
    have e : isEqual tol (0 : K) 0 = true := by simp [isEqual]
    rw [e]
    simp only [Bool.not_true, Bool.false_eq_true, if_false]
    unfold computeExtension
    rw [if_neg (not_not.2 hx), if_neg (not_not.2 hy), toInt_ok (by omega) (by omega), Res.ok_bind, if_neg (by omega), r1, Res.ok_bind, hcz]
    exact matrixFor_cartesian t tol cols rows (by omega) r2 (by omega) r3 _ _ _ _ _
  · intro p p1 p2 p3 p4
    simp only at p1 p2 p3 p4
    obtain ⟨m, hm1, α, hα, eα⟩ := block_of hx cols (p.x - ox) (by omega) (by linarith) (by linarith [hm.1])
    obtain ⟨n, hn1, β, hβ, eβ⟩ := block_of hy rows (p.y - oy) (by omega) (by linarith) (by linarith)
    refine ⟨n, m, ?_, ?_, α, β, hα, hβ, ?_, ?_⟩
    · show n + 1 < (rows + 1) - 0 - 0; omega
    · show m + 1 < (cols + 1) - 0 - 0; omega
    · simp only [hnode, vec]; push_cast; linear_combination eα
    · simp only [hnode, vec]; push_cast; linear_combination eβ

/-- What is rejected on an extension. -/
theorem extension_rejects (t : Trig K) (tol ox oy a dx dy ux uy : K)
    (hbx : -2147483648 ≤ (ux - ox) / dx) (hbx' : (ux - ox) / dx ≤ 2147483646)
    (h : a ≠ 0 ∨ dx ≤ 0 ∨ dy ≤ 0 ∨ ux ≤ ox ∨ |uy - oy| < dy) :
    createOnExtension .cartesian t tol ox oy a dx dy ux uy = .throw := by
  unfold createOnExtension checkProjection
  rw [if_neg (by simp), Res.ok_bind]
  by_cases ha : a = 0
  · have e : isEqual tol a 0 = true := by simp [isEqual, ha]
    rw [e]
    simp only [Bool.not_true, Bool.false_eq_true, if_false]
    unfold computeExtension
    split
    · rfl
    · next h1 =>
      split
      · rfl
      · next h2 =>
        simp only [not_not] at h1 h2
        have c1 : -2147483648 ≤ ⌈(ux - ox) / dx⌉ := by
          have := Int.le_ceil ((ux - ox) / dx)
          have h3 : ((-2147483648 : Int) : K) ≤ (⌈(ux - ox) / dx⌉ : K) := by push_cast; linarith
          exact_mod_cast h3
        have c2 : ⌈(ux - ox) / dx⌉ ≤ 2147483646 := Int.ceil_le.2 (by push_cast; exact hbx')
        rw [toInt_ok (by omega) (by omega), Res.ok_bind]
        split
        · rfl
        · next h3 =>
          rcases h with h | h | h | h | h
          · exact absurd ha h
          · exact absurd h1 (not_lt.2 h)
          · exact absurd h2 (not_lt.2 h)
          · exfalso
            apply h3
            refine Int.ceil_le.2 ?_
            push_cast
            exact div_nonpos_of_nonpos_of_nonneg (by linarith) (le_of_lt h1)
          · unfold computeNumRows
            rw [if_pos h]; rfl
  · have e : isEqual tol a 0 = false := by
      simp [isEqual, ha]
    rw [e]; rfl

/-- An upper right corner below the origin is not rejected, although one to the left of it is: the grid goes up and
does not reach the requested extension at all. -/
theorem extension_below_origin_goes_up (t : Trig K) (tol ox oy dx dy ux uy : K) (h0 : t.cos 0 = 1) (h0' : t.sin 0 = 0)
    (hx : 0 < dx) (hy : 0 < dy) (hux : ox < ux) (huy : dy ≤ oy - uy)
    (hbx : (ux - ox) / dx ≤ 2147483646) (hby : (oy - uy) / dy ≤ 2147483646) :
    ∃ g, createOnExtension .cartesian t tol ox oy 0 dx dy ux uy = .ok g ∧ g.isValid = true ∧
      ∀ n m, oy ≤ (g.node n m).y ∧ uy < (g.node n m).y := by
  have hw : 0 < (ux - ox) / dx := div_pos (by linarith) hx
  obtain ⟨b1, b2⟩ := ceil_bounds hw hbx
  have habs : |uy - oy| = oy - uy := by rw [abs_of_nonpos (by linarith)]; ring
  obtain ⟨rows, r1, r2, r3, _, _⟩ := computeNumRows_cartesian t tol oy uy dy hy (by rw [habs]; exact huy) (by rw [habs]; exact hby)
  have hcz : ⌈(ux - ox) / dx⌉ = (⌈(ux - ox) / dx⌉.toNat : Int) := by omega
  generalize ⌈(ux - ox) / dx⌉.toNat = cols at hcz
  refine ⟨cartesianGrid t cols rows ox oy 0 dx dy, ?_, ?_, ?_⟩
  · unfold createOnExtension checkProjection
    rw [if_neg (by simp), Res.ok_bind]
    have e : isEqual tol (0 : K) 0 = true := by simp [isEqual]
    rw [e]
    simp only [Bool.not_true, Bool.false_eq_true, if_false]
    unfold computeExtension
    rw [if_neg (not_not.2 hx), if_neg (not_not.2 hy), toInt_ok (by omega) (by omega), Res.ok_bind, if_neg (by omega), r1, Res.ok_bind, hcz]
    exact matrixFor_cartesian t tol cols rows (by omega) r2 (by omega) r3 _ _ _ _ _
  · rw [isValid_iff]
    constructor
    · show 2 ≤ (cols + 1) - 0 - 0; omega
    · show 2 ≤ (rows + 1) - 0 - 0; omega
  · intro n m
    rw [cartesianGrid_node]
    simp only [cartesianPoint, h0, h0', mul_zero, mul_one, add_zero]
    have : (0 : K) ≤ n * dy := mul_nonneg (Nat.cast_nonneg n) hy.le
    constructor <;> linarith

/-- What is rejected in a polygon: a missing polygon, an angle of a right angle or more, blocks without size. -/
theorem polygon_grid_rejects (p : Proj) (t : Trig K) (tol a dx dy : K) (poly : Option (Box K × (Pt K → Bool)))
    (h : poly = none ∨ a ≤ -90 ∨ 90 ≤ a ∨ dx ≤ 0 ∨ dy ≤ 0) : createFromPolygon p t tol a dx dy poly = .throw := by
  unfold createFromPolygon
  cases hc : checkProjection p with
  | throw => rfl
  | ub => unfold checkProjection at hc; split at hc <;> cases hc
  | ok u =>
    show computePolygon p t tol a dx dy poly = .throw
    unfold computePolygon
    split
    · rfl
    · next h1 =>
      split
      · rfl
      · next h2 =>
        split
        · rfl
        · next h3 =>
          rcases h with h | h | h | h | h
          · rw [h]
          · exact absurd h (not_le.2 (not_not.1 h1).1)
          · exact absurd h (not_le.2 (not_not.1 h1).2)
          · exact absurd h (not_le.2 (not_not.1 h2))
          · exact absurd h (not_le.2 (not_not.1 h3))

/-- **C35**, polygon: a matrix of rectangles at the requested angle covers the bounding box of the polygon; of its nodes
those of the faces with all four nodes in the polygon stay. -/
theorem polygon_grid (t : Trig K) (tol a dx dy : K) (b : Box K) (inside : Pt K → Bool) (ht : t.cos a ^ 2 + t.sin a ^ 2 = 1)
    (ha : -90 < a ∧ a < 90) (hx : 0 < dx) (hy : 0 < dy) (hb : dy ≤ 2 * max (b.hi.x - b.lo.x) (b.hi.y - b.lo.y))
    (hbx : 2 * max (b.hi.x - b.lo.x) (b.hi.y - b.lo.y) / dx ≤ 2147483646)
    (hby : 2 * max (b.hi.x - b.lo.x) (b.hi.y - b.lo.y) / dy ≤ 2147483646) :
    ∃ g g0 cols rows o, createFromPolygon .cartesian t tol a dx dy (some (b, inside)) = .ok g ∧
      Rectangles t g0 cols rows o a dx dy ∧ Covers g0 b ∧ RestrictedTo inside g0 g := by
  change dy ≤ 2 * halfSide b at hb
  change 2 * halfSide b / dx ≤ _ at hbx
  change 2 * halfSide b / dy ≤ _ at hby
  have hS : 0 < halfSide b := by linarith
  have e1 : |(centre b).x + halfSide b - ((centre b).x - halfSide b)| = 2 * halfSide b := by
    rw [abs_of_nonneg (by linarith)]; ring
  have e2 : |(centre b).y + halfSide b - ((centre b).y - halfSide b)| = 2 * halfSide b := by
    rw [abs_of_nonneg (by linarith)]; ring
  have hw : 0 < 2 * halfSide b / dx := div_pos (by linarith) hx
  obtain ⟨b1, b2⟩ := ceil_bounds hw hbx
  have hm := ceil_mul (w := 2 * halfSide b) hx
  rw [← toNat_cast (K := K) (z := ⌈2 * halfSide b / dx⌉) (by omega)] at hm
  have hcz : max ⌈2 * halfSide b / dx⌉ 1 = (⌈2 * halfSide b / dx⌉.toNat : Int) := by omega
  generalize hcols : ⌈2 * halfSide b / dx⌉.toNat = cols at hm hcz
  obtain ⟨rows, r1, r2, r3, r4, _⟩ := computeNumRows_cartesian t tol ((centre b).y - halfSide b) ((centre b).y + halfSide b) dy hy
    (by rw [e2]; exact hb) (by rw [e2]; exact hby)
  rw [e2] at r4
  let o := rotate t ⟨(centre b).x - halfSide b, (centre b).y - halfSide b⟩ a (centre b)
  have hcov := square_covers t b a dx dy ht hx hy cols rows (by omega) r2 hm.1 r4
  obtain ⟨g, hg1, hg2⟩ := delete_outside_polygon inside (cartesianGrid t cols rows o.x o.y a dx dy)
    (cartesianGrid_wf t cols rows (by omega) r2 _ _ _ _ _)
  refine ⟨g, cartesianGrid t cols rows o.x o.y a dx dy, cols, rows, ⟨o.x, o.y⟩, ?_, cartesianGrid_rectangles t _ _ _ _ a dx dy ht, hcov, hg2⟩
  unfold createFromPolygon checkProjection
  rw [if_neg (by simp), Res.ok_bind]
  unfold computePolygon
  rw [if_neg (not_not.2 ha), if_neg (not_not.2 hx), if_neg (not_not.2 hy)]
  simp only
  have hpm : polygonMatrix .cartesian t tol a dx dy b = .ok (cartesianGrid t cols rows o.x o.y a dx dy) := by
    unfold polygonMatrix
    simp only
    rw [e1, toInt_ok (by omega) (by omega), Res.ok_bind, r1, Res.ok_bind, hcz]
    exact matrixFor_cartesian t tol cols rows (by omega) r2 (by omega) r3 _ _ _ _ _
  rw [hpm, Res.ok_bind]
  exact hg1

/-! ### Examples -/

/-- An angle with rational cosine and sine. -/
def pythagoras : Trig ℚ := ⟨fun a => if a = 0 then 1 else 3 / 5, fun a => if a = 0 then 0 else 4 / 5, 1 / 57⟩

example : pythagoras.cos 53 ^ 2 + pythagoras.sin 53 ^ 2 = 1 := by norm_num [pythagoras]

example : (match createRectangular .cartesian pythagoras 0 2 1 10 20 53 5 10 with
    | .ok g => [g.numN, g.numM]
    | _ => []) = [2, 3] := by decide +kernel

example : (match createRectangular .cartesian pythagoras 0 2 1 10 20 53 5 10 with
    | .ok g => [g.node 0 0, g.node 0 1, g.node 1 0, g.node 1 2]
    | _ => []) = [⟨10, 20⟩, ⟨13, 24⟩, ⟨2, 26⟩, ⟨8, 34⟩] := by decide +kernel

example : (match createOnExtension .cartesian pythagoras 0 0 0 0 2 3 5 7 with
    | .ok g => [g.node 0 0, g.node 3 3]
    | _ => []) = [⟨0, 0⟩, ⟨6, 9⟩] := by decide +kernel

end Verif.Rect
