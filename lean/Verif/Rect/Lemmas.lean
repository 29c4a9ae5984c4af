import Verif.Rect.Spec
import Mathlib.Tactic.Linarith
import Mathlib.Tactic.Ring
import Mathlib.Tactic.FieldSimp
import Mathlib.Tactic.Positivity
/-!
# Lemmas about rectangular grids
-/
namespace Verif.Rect
open Verif.Curvi
variable {K : Type} [Field K] [LinearOrder K]

theorem toInt_ok {z : Int} (h1 : -2147483648 ≤ z) (h2 : z ≤ 2147483647) : toInt z = .ok z := if_pos ⟨h1, h2⟩

theorem toInt_eq_ok {z w : Int} (h : toInt z = .ok w) : w = z ∧ -2147483648 ≤ z ∧ z ≤ 2147483647 := by
  unfold toInt at h
  split at h
  · next hz => exact ⟨(Res.ok.inj h).symm, hz⟩
  · cases h

/-- The grid of a computed matrix. -/
def cartesianGrid (t : Trig K) (cols rows : Nat) (ox oy a dx dy : K) : Grid (Pt K) :=
  { rows := rows + 1, cols := cols + 1, cell := cartesianPoint t ox oy a dx dy }

omit [LinearOrder K] in
theorem computeCartesian_ok (t : Trig K) (cols rows : Nat) (hc : cols < 2147483647) (hr : rows < 2147483647) (ox oy a dx dy : K) :
    computeCartesian t cols rows ox oy a dx dy = .ok (cartesianGrid t cols rows ox oy a dx dy) := by
  unfold computeCartesian
  rw [toInt_ok (by omega) (by omega), Res.ok_bind, toInt_ok (by omega) (by omega), Res.ok_bind]
  have e1 : ((cols : Int) + 1).toNat = cols + 1 := by omega
  have e2 : ((rows : Int) + 1).toNat = rows + 1 := by omega
  rw [e1, e2]; rfl

omit [Field K] [LinearOrder K] in
theorem makeGrid_ok (g : Grid (Pt K)) (h1 : 2 ≤ g.rows) (h2 : 2 ≤ g.cols) : makeGrid g = .ok g := by
  unfold makeGrid setGridNodes
  rw [if_neg (by omega)]

theorem matrixFor_cartesian (t : Trig K) (tol : K) (cols rows : Nat) (h1 : 1 ≤ cols) (h2 : 1 ≤ rows)
    (hc : cols < 2147483647) (hr : rows < 2147483647) (ox oy a dx dy : K) :
    matrixFor .cartesian t tol cols rows ox oy a dx dy = .ok (cartesianGrid t cols rows ox oy a dx dy) := by
  unfold matrixFor
  simp only
  rw [computeCartesian_ok t cols rows hc hr, Res.ok_bind, makeGrid_ok]
  · show 2 ≤ rows + 1; omega
  · show 2 ≤ cols + 1; omega

omit [LinearOrder K] in
theorem cartesianGrid_wf (t : Trig K) (cols rows : Nat) (h1 : 1 ≤ cols) (h2 : 1 ≤ rows) (ox oy a dx dy : K) :
    WF (cartesianGrid t cols rows ox oy a dx dy) :=
  ⟨by show 0 + 2 + 0 ≤ rows + 1; omega, by show 0 + 2 + 0 ≤ cols + 1; omega⟩

omit [LinearOrder K] in
theorem cartesianGrid_node (t : Trig K) (cols rows : Nat) (ox oy a dx dy : K) (n m : Nat) :
    (cartesianGrid t cols rows ox oy a dx dy).node n m = cartesianPoint t ox oy a dx dy n m := rfl

omit [LinearOrder K] in
theorem vec_along (t : Trig K) (ox oy a dx dy : K) (n m : Nat) :
    vec (cartesianPoint t ox oy a dx dy n m) (cartesianPoint t ox oy a dx dy n (m + 1)) = ⟨dx * t.cos a, dx * t.sin a⟩ := by
  unfold vec cartesianPoint
  congr 1 <;> push_cast <;> ring

omit [LinearOrder K] in
theorem vec_across (t : Trig K) (ox oy a dx dy : K) (n m : Nat) :
    vec (cartesianPoint t ox oy a dx dy n m) (cartesianPoint t ox oy a dx dy (n + 1) m) = ⟨-(dy * t.sin a), dy * t.cos a⟩ := by
  unfold vec cartesianPoint
  congr 1 <;> push_cast <;> ring

omit [LinearOrder K] in
theorem cartesianGrid_rectangles (t : Trig K) (cols rows : Nat) (ox oy a dx dy : K) (ht : t.cos a ^ 2 + t.sin a ^ 2 = 1) :
    Rectangles t (cartesianGrid t cols rows ox oy a dx dy) cols rows ⟨ox, oy⟩ a dx dy where
  numM := by simp [cartesianGrid, Grid.numM]
  numN := by simp [cartesianGrid, Grid.numN]
  first := by rw [cartesianGrid_node]; simp [cartesianPoint]
  along n m _ _ := by simp only [cartesianGrid_node, vec_along]
  across n m _ _ := by
    simp only [cartesianGrid_node, vec_across, dot]
    linear_combination dy ^ 2 * ht
  length n m _ _ := by
    simp only [cartesianGrid_node, vec_along, dot]
    linear_combination dx ^ 2 * ht
  right n m _ _ := by
    simp only [cartesianGrid_node, vec_along, vec_across, dot, cross]
    constructor
    · ring
    · linear_combination (dx * dy) * ht

variable [IsStrictOrderedRing K]

/-- A length up to `k` blocks falls into one of the blocks. -/
theorem block_of {d : K} (hd : 0 < d) : ∀ (k : Nat) (u : K), 1 ≤ k → 0 ≤ u → u ≤ k * d →
    ∃ m, m < k ∧ ∃ α, (0 ≤ α ∧ α ≤ 1) ∧ u = (m + α) * d := by
  intro k
  induction k with
  | zero => intro u h; omega
  | succ k ih =>
    intro u _ h0 h1
    by_cases hu : 1 ≤ k ∧ u ≤ k * d
    · obtain ⟨m, hm, α, h⟩ := ih u hu.1 h0 hu.2
      exact ⟨m, by omega, α, h⟩
    · refine ⟨k, by omega, u / d - k, ⟨?_, ?_⟩, by field_simp; ring⟩
      · rw [sub_nonneg, le_div_iff₀ hd]
        by_cases hk : 1 ≤ k
        · exact le_of_lt (not_le.1 (fun h => hu ⟨hk, h⟩))
        · have : k = 0 := by omega
          subst this; simpa using h0
      · rw [sub_le_iff_le_add, div_le_iff₀ hd]
        push_cast at h1
        linarith

theorem abs_le_one_of_sq {c s : K} (h : c ^ 2 + s ^ 2 = 1) : |c| ≤ 1 ∧ |s| ≤ 1 := by
  constructor <;> rw [abs_le_one_iff_mul_self_le_one] <;> nlinarith [mul_self_nonneg c, mul_self_nonneg s]

theorem abs_comb {a b c s S : K} (ha : |a| ≤ S / 2) (hb : |b| ≤ S / 2) (hc : |c| ≤ 1) (hs : |s| ≤ 1) : |a * c + b * s| ≤ S := by
  have h1 : |a * c| ≤ S / 2 := by
    rw [abs_mul]
    exact le_trans (mul_le_of_le_one_right (abs_nonneg _) hc) ha
  have h2 : |b * s| ≤ S / 2 := by
    rw [abs_mul]
    exact le_trans (mul_le_of_le_one_right (abs_nonneg _) hs) hb
  calc |a * c + b * s| ≤ |a * c| + |b * s| := abs_add_le _ _
    _ ≤ S := by linarith

/-- The square around the centre of a box, turned by any angle, covers the box. -/
theorem square_covers (t : Trig K) (b : Box K) (a dx dy : K) (ht : t.cos a ^ 2 + t.sin a ^ 2 = 1) (hdx : 0 < dx) (hdy : 0 < dy)
    (cols rows : Nat) (h1 : 1 ≤ cols) (h2 : 1 ≤ rows) (hc : 2 * halfSide b ≤ cols * dx) (hr : 2 * halfSide b ≤ rows * dy) :
    Covers (cartesianGrid t cols rows (rotate t ⟨(centre b).x - halfSide b, (centre b).y - halfSide b⟩ a (centre b)).x
      (rotate t ⟨(centre b).x - halfSide b, (centre b).y - halfSide b⟩ a (centre b)).y a dx dy) b := by
  intro p hx1 hx2 hy1 hy2
  have hS1 : b.hi.x - b.lo.x ≤ halfSide b := le_max_left _ _
  have hS2 : b.hi.y - b.lo.y ≤ halfSide b := le_max_right _ _
  obtain ⟨hcos, hsin⟩ := abs_le_one_of_sq ht
  have hA : |p.x - (centre b).x| ≤ halfSide b / 2 := by
    rw [abs_le]; unfold centre; constructor <;> simp only <;> linarith
  have hB : |p.y - (centre b).y| ≤ halfSide b / 2 := by
    rw [abs_le]; unfold centre; constructor <;> simp only <;> linarith
  generalize hS : halfSide b = S at *
  have hu := abs_le.1 (abs_comb hA hB hcos hsin)
  have hB' : |-(p.x - (centre b).x)| ≤ S / 2 := by rw [abs_neg]; exact hA
  have hv := abs_le.1 (abs_comb hB hB' hcos hsin)
  obtain ⟨m, hm, α, hα, eα⟩ := block_of hdx cols ((p.x - (centre b).x) * t.cos a + (p.y - (centre b).y) * t.sin a + S) h1 (by linarith [hu.1]) (by linarith [hu.2])
  obtain ⟨n, hn, β, hβ, eβ⟩ := block_of hdy rows ((p.y - (centre b).y) * t.cos a + -(p.x - (centre b).x) * t.sin a + S) h2 (by linarith [hv.1]) (by linarith [hv.2])
  refine ⟨n, m, ?_, ?_, α, β, hα, hβ, ?_, ?_⟩
  · show n + 1 < (rows + 1) - 0 - 0; omega
  · show m + 1 < (cols + 1) - 0 - 0; omega
  · simp only [cartesianGrid_node, vec_along, vec_across]
    simp only [cartesianPoint, rotate]
    linear_combination t.cos a * eα - t.sin a * eβ - (p.x - (centre b).x) * ht
  · simp only [cartesianGrid_node, vec_along, vec_across]
    simp only [cartesianPoint, rotate]
    linear_combination t.sin a * eα + t.cos a * eβ - (p.y - (centre b).y) * ht

end Verif.Rect
