import Verif.Quality.Spec
import Verif.Cross.SegmentLemmas
import Verif.Polygons.ContainsProps
import Mathlib.Tactic.Linarith
import Mathlib.Tactic.FieldSimp
import Mathlib.Tactic.LinearCombination
/-!
# Lemmas: the centre of a triangle
-/
namespace Verif.Quality
open Verif.Polygons (Pt area2)

theorem circumcentre_spec {p q r : Pt} (h : area2 p q r ≠ 0) : ∃ z : ℚ,
    z * area2 p q r = -((q.x - p.x) * (q.x - r.x) + (q.y - p.y) * (q.y - r.y)) ∧
    (circumcentre p q r).x = p.x + 1 / 2 * ((r.x - p.x) - z * (r.y - p.y)) ∧
    (circumcentre p q r).y = p.y + 1 / 2 * ((r.y - p.y) + z * (r.x - p.x)) := by
  have hd : (q.y - p.y) * (r.x - p.x) - (r.y - p.y) * (q.x - p.x) ≠ 0 := by
    intro h0
    apply h
    unfold area2
    linear_combination -h0
  refine ⟨_, ?_, rfl, rfl⟩
  rw [if_pos (abs_pos.2 hd)]
  unfold area2
  rw [div_mul_eq_mul_div, div_eq_iff hd]
  ring

/-- The circumcentre has the same distance from all corners. -/
theorem circumcentre_gap {p q r : Pt} (h : area2 p q r ≠ 0) :
    gap (circumcentre p q r) p = gap (circumcentre p q r) q ∧ gap (circumcentre p q r) q = gap (circumcentre p q r) r := by
  obtain ⟨z, hz, hx, hy⟩ := circumcentre_spec h
  unfold gap
  rw [hx, hy]
  unfold area2 at hz
  constructor
  · linear_combination -hz
  · linear_combination hz

theorem circumcentre_area {p q r : Pt} (h : area2 p q r ≠ 0) :
    2 * area2 p q r * area2 p q (circumcentre p q r) = gap p q * dotAt r p q ∧
    2 * area2 p q r * area2 q r (circumcentre p q r) = gap q r * dotAt p q r ∧
    2 * area2 p q r * area2 r p (circumcentre p q r) = gap r p * dotAt q r p := by
  obtain ⟨z, hz, hx, hy⟩ := circumcentre_spec h
  have e1 : ∀ a b : Pt, area2 a b (circumcentre p q r) = (b.x - a.x) * (p.y + 1 / 2 * ((r.y - p.y) + z * (r.x - p.x)) - a.y) -
      (b.y - a.y) * (p.x + 1 / 2 * ((r.x - p.x) - z * (r.y - p.y)) - a.x) := by
    intro a b; unfold area2; rw [hx, hy]
  rw [e1, e1, e1]
  unfold gap dotAt
  unfold area2 at hz ⊢
  refine ⟨?_, ?_, ?_⟩
  · linear_combination ((q.x - p.x) * (r.x - p.x) + (q.y - p.y) * (r.y - p.y)) * hz
  · linear_combination ((q.x - r.x) * (p.x - r.x) + (q.y - r.y) * (p.y - r.y)) * hz
  · linear_combination (-(r.x - p.x) ^ 2 - (r.y - p.y) ^ 2) * hz

theorem area_sum (p q r c : Pt) : area2 p q c + area2 q r c + area2 r p c = area2 p q r := by unfold area2; ring

theorem gap_pos {p q : Pt} (h : p ≠ q) : 0 < gap p q := by
  unfold gap
  rcases lt_or_eq_of_le (add_nonneg (sq_nonneg (q.x - p.x)) (sq_nonneg (q.y - p.y))) with h0 | h0
  · exact h0
  · exfalso
    apply h
    have h1 : q.x - p.x = 0 := by nlinarith [sq_nonneg (q.x - p.x), sq_nonneg (q.y - p.y)]
    have h2 : q.y - p.y = 0 := by nlinarith [sq_nonneg (q.x - p.x), sq_nonneg (q.y - p.y)]
    cases p; cases q
    simp only [Polygons.Pt.mk.injEq]
    simp only at h1 h2
    exact ⟨by linarith, by linarith⟩

theorem gap_eq_zero {p q : Pt} : gap p q = 0 ↔ p = q := by
  constructor
  · intro h
    by_contra hn
    exact absurd h (gap_pos hn).ne'
  · rintro rfl; unfold gap; ring

theorem gap_nonneg (p q : Pt) : 0 ≤ gap p q := add_nonneg (sq_nonneg _) (sq_nonneg _)

theorem corners_distinct {p q r : Pt} (h : area2 p q r ≠ 0) : p ≠ q ∧ q ≠ r ∧ r ≠ p := by
  refine ⟨?_, ?_, ?_⟩ <;> rintro rfl <;> exact h (by unfold area2; ring)

/-- The barycentric coordinates of a point. -/
theorem inTriangle_of_area {p q r c : Pt} (h : 0 < area2 p q r) (h1 : 0 ≤ area2 p q c) (h2 : 0 ≤ area2 q r c) (h3 : 0 ≤ area2 r p c) :
    InTriangle p q r c := by
  refine ⟨area2 q r c / area2 p q r, area2 r p c / area2 p q r, area2 p q c / area2 p q r, div_nonneg h2 h.le, div_nonneg h3 h.le,
    div_nonneg h1 h.le, ?_, ?_, ?_⟩
  · rw [← add_div, ← add_div, div_eq_one_iff_eq h.ne']
    linear_combination area_sum p q r c
  · field_simp
    unfold area2; ring
  · field_simp
    unfold area2; ring

/-- The sign of an angle says on which side of the opposite side the circumcentre is. -/
theorem side_of_angle {D b g d : ℚ} (hD : 0 < D) (hg : 0 < g) (h : 2 * D * b = g * d) : (0 < b ↔ 0 < d) ∧ (b < 0 ↔ d < 0) ∧ (b = 0 ↔ d = 0) := by
  have h2 : 0 < 2 * D := by linarith
  refine ⟨?_, ?_, ?_⟩
  · constructor
    · intro hb
      by_contra hn
      nlinarith [mul_pos h2 hb, mul_nonneg hg.le (neg_nonneg.2 (not_lt.1 hn))]
    · intro hd
      by_contra hn
      nlinarith [mul_pos hg hd, mul_nonneg h2.le (neg_nonneg.2 (not_lt.1 hn))]
  · constructor
    · intro hb
      by_contra hn
      nlinarith [mul_pos h2 (neg_pos.2 hb), mul_nonneg hg.le (not_lt.1 hn)]
    · intro hd
      by_contra hn
      nlinarith [mul_pos hg (neg_pos.2 hd), mul_nonneg h2.le (not_lt.1 hn)]
  · constructor
    · intro hb
      rw [hb, mul_zero] at h
      exact (mul_eq_zero.1 h.symm).resolve_left hg.ne'
    · intro hd
      rw [hd, mul_zero] at h
      exact (mul_eq_zero.1 h).resolve_left h2.ne'

theorem circumcentre_sides {p q r : Pt} (h : 0 < area2 p q r) :
    ((0 < area2 p q (circumcentre p q r) ↔ 0 < dotAt r p q) ∧ (area2 p q (circumcentre p q r) < 0 ↔ dotAt r p q < 0)) ∧
    ((0 < area2 q r (circumcentre p q r) ↔ 0 < dotAt p q r) ∧ (area2 q r (circumcentre p q r) < 0 ↔ dotAt p q r < 0)) ∧
    ((0 < area2 r p (circumcentre p q r) ↔ 0 < dotAt q r p) ∧ (area2 r p (circumcentre p q r) < 0 ↔ dotAt q r p < 0)) := by
  obtain ⟨h1, h2, h3⟩ := circumcentre_area h.ne'
  obtain ⟨n1, n2, n3⟩ := corners_distinct h.ne'
  have a := side_of_angle h (gap_pos n1) h1
  have b := side_of_angle h (gap_pos n2) h2
  have c := side_of_angle h (gap_pos n3) h3
  exact ⟨⟨a.1, a.2.1⟩, ⟨b.1, b.2.1⟩, ⟨c.1, c.2.1⟩⟩

/-- A point of a triangle is finite when its corners are. -/
theorem inTriangle_finite {p q r c : Pt} (hp : p.Finite) (hq : q.Finite) (hr : r.Finite) (h : InTriangle p q r c) : c.Finite := by
  obtain ⟨u, v, w, hu, hv, hw, hs, hx, hy⟩ := h
  obtain ⟨a1, a2, a3, a4⟩ := hp
  obtain ⟨b1, b2, b3, b4⟩ := hq
  obtain ⟨c1, c2, c3, c4⟩ := hr
  have key : ∀ a b c M : ℚ, a < M → b < M → c < M → u * a + v * b + w * c < M := by
    intro a b c M ha hb hc
    have : (M - (u * a + v * b + w * c)) = u * (M - a) + v * (M - b) + w * (M - c) := by linear_combination -M * hs
    have t : 0 < u * (M - a) + v * (M - b) + w * (M - c) := by
      rcases lt_or_eq_of_le hu with h | h
      · have := mul_pos h (sub_pos.2 ha)
        have := mul_nonneg hv (sub_pos.2 hb).le
        have := mul_nonneg hw (sub_pos.2 hc).le
        linarith
      · rcases lt_or_eq_of_le hv with h' | h'
        · have := mul_nonneg hu (sub_pos.2 ha).le
          have := mul_pos h' (sub_pos.2 hb)
          have := mul_nonneg hw (sub_pos.2 hc).le
          linarith
        · have hw1 : w = 1 := by linarith
          rw [← h, ← h', hw1]
          linarith
    linarith
  have e1 := key _ _ _ _ a2 b2 c2
  have e2 := key _ _ _ _ a4 b4 c4
  have e3 := key (-p.x) (-q.x) (-r.x) Polygons.dblMax (by linarith) (by linarith) (by linarith)
  have e4 := key (-p.y) (-q.y) (-r.y) Polygons.dblMax (by linarith) (by linarith) (by linarith)
  refine ⟨?_, ?_, ?_, ?_⟩
  · rw [hx]; linarith
  · rw [hx]; linarith
  · rw [hy]; linarith
  · rw [hy]; linarith

/-- A point of a triangle lies in the box of its corners. -/
theorem inTriangle_inBox {p q r c : Pt} (h : InTriangle p q r c) : Polygons.InBox [p, q, r, p] c := by
  obtain ⟨u, v, w, hu, hv, hw, hs, hx, hy⟩ := h
  have key : ∀ a b c : ℚ, a ≤ u * a + v * b + w * c ∨ b ≤ u * a + v * b + w * c ∨ c ≤ u * a + v * b + w * c := by
    intro a b c
    by_contra hn
    push Not at hn
    obtain ⟨h1, h2, h3⟩ := hn
    have e : u * a + v * b + w * c = u * (u * a + v * b + w * c) + v * (u * a + v * b + w * c) + w * (u * a + v * b + w * c) := by
      linear_combination -(u * a + v * b + w * c) * hs
    generalize hM : u * a + v * b + w * c = M at *
    have t1 := mul_nonneg hu (sub_pos.2 h1).le
    have t2 := mul_nonneg hv (sub_pos.2 h2).le
    have t3 := mul_nonneg hw (sub_pos.2 h3).le
    rcases lt_or_eq_of_le hu with h | h
    · nlinarith [mul_pos h (sub_pos.2 h1)]
    · rcases lt_or_eq_of_le hv with h' | h'
      · nlinarith [mul_pos h' (sub_pos.2 h2)]
      · have hw1 : w = 1 := by linarith
        rw [← h, ← h', hw1] at hM
        linarith
  have f : ∀ (g : Pt → ℚ) (M : ℚ), (g p ≤ M ∨ g q ≤ M ∨ g r ≤ M) → ∃ t ∈ [p, q, r, p], g t ≤ M := by
    intro g M h
    rcases h with h | h | h
    · exact ⟨p, by simp, h⟩
    · exact ⟨q, by simp, h⟩
    · exact ⟨r, by simp, h⟩
  refine ⟨f _ _ ?_, ?_, f _ _ ?_, ?_⟩
  · rw [hx]; exact key _ _ _
  · obtain ⟨t, h1, h2⟩ := f (fun t => -t.x) (-c.x) (by
      have := key (-p.x) (-q.x) (-r.x)
      rw [hx]
      rcases this with h | h | h
      · exact Or.inl (by linarith)
      · exact Or.inr (Or.inl (by linarith))
      · exact Or.inr (Or.inr (by linarith)))
    exact ⟨t, h1, by simpa using h2⟩
  · rw [hy]; exact key _ _ _
  · obtain ⟨t, h1, h2⟩ := f (fun t => -t.y) (-c.y) (by
      have := key (-p.y) (-q.y) (-r.y)
      rw [hy]
      rcases this with h | h | h
      · exact Or.inl (by linarith)
      · exact Or.inr (Or.inl (by linarith))
      · exact Or.inr (Or.inr (by linarith)))
    exact ⟨t, h1, by simpa using h2⟩

end Verif.Quality
