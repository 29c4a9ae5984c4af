import Verif.Sampling.Spec
import Verif.Polygons.ContainsProps
import Mathlib.Data.Finset.Basic
import Mathlib.Algebra.CharZero.Infinite
import Mathlib.Tactic.FieldSimp
/-!
# Lemmas: what lies in the polygon lies in the circle
-/
namespace Verif.Sampling
open Verif.Polygons

/-- There is a base point from which no segment to a corner passes through `p`. -/
theorem exists_base (p : Pt) (l : List Pt) (h : ∀ q ∈ l, q ≠ p) : ∃ o, ∀ q ∈ l, ¬ OnSegment o q p := by
  classical
  obtain ⟨k, hk⟩ := Infinite.exists_notMem_finset (l.map (fun q => (q.y - p.y) / (q.x - p.x))).toFinset
  refine ⟨⟨p.x + 1, p.y + k⟩, ?_⟩
  rintro q hq ⟨t, t0, t1, hx, hy⟩
  simp only at hx hy
  have e1 : t * (q.x - p.x) = t - 1 := by linarith
  have e2 : t * (q.y - p.y) = (t - 1) * k := by linarith
  rcases t0.eq_or_lt with rfl | tp
  · norm_num at e1
  by_cases hx0 : q.x - p.x = 0
  · rw [hx0, mul_zero] at e1
    have t1' : t = 1 := by linarith
    rw [t1'] at e2
    apply h q hq
    rcases q with ⟨qx, qy⟩; rcases p with ⟨px, py⟩
    simp only [Pt.mk.injEq] at *
    constructor <;> linarith
  · apply hk
    rw [List.mem_toFinset, List.mem_map]
    refine ⟨q, hq, ?_⟩
    rw [div_eq_iff hx0]
    have : t * (q.y - p.y) = t * (k * (q.x - p.x)) := by rw [e2, ← e1]; ring
    exact mul_left_cancel₀ tp.ne' this

theorem corner_ne {ring : List Pt} {p : Pt} (hr : RingNodes ring) (ho : OffLines ring p) : ∀ q ∈ ring, q ≠ p := by
  rintro q hq rfl
  obtain ⟨pre, post, e⟩ := List.append_of_mem hq
  obtain ⟨h4, -, -⟩ := hr
  cases post with
  | cons b post =>
    exact ho (q, b) (by rw [e]; exact mem_sides_of_append pre post q b) (by simp [area2])
  | nil =>
    rcases List.eq_nil_or_concat pre with rfl | ⟨pre', a, rfl⟩
    · rw [e] at h4; simp at h4
    · refine ho (a, q) ?_ (by simp only [area2]; ring)
      rw [e]
      have := mem_sides_of_append pre' [] a q
      simpa using this

/-- Off the lines of the sides, the test of the program is the geometric one. -/
theorem inside_iff {ring : List Pt} {p : Pt} (hr : RingNodes ring) (hv : p.isValid = true) (hp : p.Finite) (ho : OffLines ring p) :
    inPolygonNodes ring p = true ↔ Inside ring p := by
  have hd : ∀ s ∈ sides ring, s.1 ≠ s.2 := by
    intro s hs e
    exact ho s hs (by rw [e]; simp [area2])
  have hseg : ¬ ∃ s ∈ sides ring, OnSegment s.1 s.2 p := by
    rintro ⟨s, hs, t, -, -, hx, hy⟩
    exact ho s hs (by unfold area2; rw [hx, hy]; ring)
  have agree := nodes_test_agrees_partial ring hr p hv hp ho
  have key : ∀ o, (∀ q ∈ ring, ¬ OnSegment o q p) → (inPolygonNodes ring p = true ↔ turns o ring p ≠ 0) := by
    intro o h
    obtain ⟨b, hb, hb'⟩ := contains_iff_turns ring hr hd p hv hp o h
    rw [agree] at hb
    injection hb with hb
    rw [hb, hb']
    exact ⟨fun h => h.resolve_left hseg, .inr⟩
  constructor
  · intro h
    obtain ⟨o, hb⟩ := exists_base p ring (corner_ne hr ho)
    exact ⟨o, hb, (key o hb).1 h⟩
  · rintro ⟨o, hb, h⟩
    exact (key o hb).2 h

/-! ## The circle -/

/-- Above the point or not. -/
def above (p q : Pt) : Int := if p.y < q.y then 1 else 0

theorem path_above (p : Pt) (l : List Pt) (a z : Pt) (hl : l.head? = some a) (hz : l.getLast? = some z) :
    ((sides l).map fun s => above p s.2 - above p s.1).sum = above p z - above p a := by
  induction l generalizing a with
  | nil => simp at hl
  | cons x l ih =>
    simp only [List.head?_cons, Option.some.injEq] at hl
    subst hl
    cases l with
    | nil =>
      simp only [List.getLast?_singleton, Option.some.injEq] at hz
      subst hz
      simp [sides]
    | cons y l =>
      have e : sides (x :: y :: l) = (x, y) :: sides (y :: l) := rfl
      rw [e, List.map_cons, List.sum_cons, ih y rfl (by simpa using hz)]
      simp only []
      omega

/-- The point of a side at the height of `p`. -/
theorem level_point {a b p : Pt} (h : (a.y ≤ p.y ∧ p.y < b.y) ∨ (p.y < a.y ∧ b.y ≤ p.y)) :
    ∃ q, OnSegment a b q ∧ q.y = p.y ∧ (q.x - p.x) * (b.y - a.y) = area2 a b p := by
  have hne : b.y - a.y ≠ 0 := by rcases h with h | h <;> intro e <;> linarith [h.1, h.2]
  refine ⟨⟨a.x + (p.y - a.y) / (b.y - a.y) * (b.x - a.x), p.y⟩,
    ⟨(p.y - a.y) / (b.y - a.y), ?_, ?_, ?_, ?_⟩, rfl, ?_⟩
  · rcases h with h | h
    · exact div_nonneg (by linarith) (by linarith)
    · exact div_nonneg_of_nonpos (by linarith) (by linarith)
  · rcases h with h | h
    · rw [div_le_one (by linarith)]; linarith
    · rw [div_le_one_of_neg (by linarith)]; linarith
  · simp only; ring
  · simp only; field_simp; ring
  · simp only [area2]; field_simp; ring

/-- A side that counts as a crossing passes to the right of the point. -/
theorem crossing_at_right {a b p : Pt} (h : crossing a b p ≠ 0) : ∃ q, OnSegment a b q ∧ q.y = p.y ∧ p.x < q.x := by
  unfold crossing at h
  rw [cross_eq] at h
  split at h
  · rename_i ha
    split at h
    · rename_i hb
      obtain ⟨q, h1, h2, h3⟩ := level_point (p := p) (.inl ⟨ha, hb.1⟩)
      refine ⟨q, h1, h2, ?_⟩
      have : 0 < (q.x - p.x) * (b.y - a.y) := by rw [h3]; exact hb.2
      have := (pos_iff_pos_of_mul_pos this).2 (by linarith [hb.1])
      linarith
    · exact absurd rfl h
  · rename_i ha
    split at h
    · rename_i hb
      obtain ⟨q, h1, h2, h3⟩ := level_point (p := p) (.inr ⟨not_le.1 ha, hb.1⟩)
      refine ⟨q, h1, h2, ?_⟩
      have h4 : 0 < (q.x - p.x) * (a.y - b.y) := by
        have : (q.x - p.x) * (a.y - b.y) = - area2 a b p := by rw [← h3]; ring
        rw [this]; linarith [hb.2]
      have := (pos_iff_pos_of_mul_pos h4).2 (by linarith [hb.1, not_le.1 ha])
      linarith
    · exact absurd rfl h

/-- A side that goes past the height of the point without counting passes to the left of it. -/
theorem crossing_at_left {a b p : Pt} (h0 : area2 a b p ≠ 0) (h : crossing a b p ≠ above p b - above p a) :
    ∃ q, OnSegment a b q ∧ q.y = p.y ∧ q.x < p.x := by
  unfold crossing above at h
  rw [cross_eq] at h
  by_cases ha : a.y ≤ p.y
  · by_cases hb : p.y < b.y
    · have hc : area2 a b p < 0 := by
        rcases lt_or_gt_of_ne h0 with h1 | h1
        · exact h1
        · simp [ha, hb, h1, not_lt.2 ha] at h
      obtain ⟨q, h1, h2, h3⟩ := level_point (p := p) (.inl ⟨ha, hb⟩)
      refine ⟨q, h1, h2, ?_⟩
      have h4 : 0 < (p.x - q.x) * (b.y - a.y) := by
        have : (p.x - q.x) * (b.y - a.y) = - area2 a b p := by rw [← h3]; ring
        rw [this]; linarith
      have := (pos_iff_pos_of_mul_pos h4).2 (by linarith)
      linarith
    · simp [ha, hb, not_lt.2 ha] at h
  · have ha' := not_le.1 ha
    by_cases hb : b.y ≤ p.y
    · have hc : 0 < area2 a b p := by
        rcases lt_or_gt_of_ne h0 with h1 | h1
        · simp [ha, ha', hb, h1, not_lt.2 hb] at h
        · exact h1
      obtain ⟨q, h1, h2, h3⟩ := level_point (p := p) (.inr ⟨ha', hb⟩)
      refine ⟨q, h1, h2, ?_⟩
      have h4 : 0 < (p.x - q.x) * (a.y - b.y) := by
        have : (p.x - q.x) * (a.y - b.y) = area2 a b p := by rw [← h3]; ring
        rw [this]; exact hc
      have := (pos_iff_pos_of_mul_pos h4).2 (by linarith)
      linarith
    · simp [ha, ha', hb, not_le.1 hb] at h

theorem exists_ne_of_sum_ne {α : Type} (f g : α → Int) (l : List α) (h : (l.map f).sum ≠ (l.map g).sum) : ∃ x ∈ l, f x ≠ g x := by
  by_contra hc
  push Not at hc
  exact h (by rw [List.map_congr_left hc])

theorem disc_segment {c a b q : Pt} {r2 : ℚ} (ha : sqDist c a ≤ r2) (hb : sqDist c b ≤ r2) (h : OnSegment a b q) : sqDist c q ≤ r2 := by
  obtain ⟨t, t0, t1, hx, hy⟩ := h
  unfold sqDist at *
  rw [hx, hy]
  have e : ((1 - t) * a.x + t * b.x - c.x) ^ 2 + ((1 - t) * a.y + t * b.y - c.y) ^ 2
      = (1 - t) * ((a.x - c.x) ^ 2 + (a.y - c.y) ^ 2) + t * ((b.x - c.x) ^ 2 + (b.y - c.y) ^ 2)
        - t * (1 - t) * ((a.x - b.x) ^ 2 + (a.y - b.y) ^ 2) := by ring
  rw [e]
  have h1 := mul_le_mul_of_nonneg_left ha (sub_nonneg.2 t1)
  have h2 := mul_le_mul_of_nonneg_left hb t0
  have h3 : 0 ≤ t * (1 - t) * ((a.x - b.x) ^ 2 + (a.y - b.y) ^ 2) :=
    mul_nonneg (mul_nonneg t0 (sub_nonneg.2 t1)) (by positivity)
  linarith

/-- Strictly between two points of a disc, at the same height, lies the inner part of the disc. -/
theorem disc_between {c u v p : Pt} {r2 : ℚ} (hu : sqDist c u ≤ r2) (hv : sqDist c v ≤ r2) (h1 : u.y = p.y) (h2 : v.y = p.y)
    (h3 : u.x < p.x) (h4 : p.x < v.x) : sqDist c p < r2 := by
  unfold sqDist at *
  rw [h1] at hu; rw [h2] at hv
  rcases le_total c.x p.x with h | h
  · have : (p.x - c.x) ^ 2 < (v.x - c.x) ^ 2 := by nlinarith
    linarith
  · have : (p.x - c.x) ^ 2 < (u.x - c.x) ^ 2 := by nlinarith
    linarith

/-- What the polygon goes around lies strictly within any circle around the polygon. -/
theorem near_of_inside {ring : List Pt} {p c : Pt} {r2 : ℚ} (hr : RingNodes ring) (ho : OffLines ring p)
    (hc : ∀ q ∈ ring, sqDist c q ≤ r2) (h : inPolygonNodes ring p = true) : sqDist c p < r2 := by
  obtain ⟨h4, hcl, hval⟩ := hr
  have hsum : ((sides ring).map fun s => crossing s.1 s.2 p).sum ≠ 0 := by
    cases ring with
    | nil => simp at h4
    | cons a l =>
      have hz : (a :: l).getLast? = some a := by rw [← hcl]; rfl
      unfold inPolygonNodes at h
      rw [hz] at h
      simp only [List.head?_cons, Pt.same_self, Bool.not_true, Bool.false_eq_true, if_false] at h
      rw [if_neg (by omega), if_neg (by omega)] at h
      split at h
      · cases h
      · rw [nodesLoop_eq, Bool.or_eq_true, List.any_eq_true] at h
        rcases h with ⟨s, hs, h⟩ | h
        · exact absurd (by simpa using h) (ho s hs)
        · simpa using h
  have hab : ((sides ring).map fun s => above p s.2 - above p s.1).sum = 0 := by
    cases ring with
    | nil => simp at h4
    | cons a l =>
      have hz : (a :: l).getLast? = some a := by rw [← hcl]; rfl
      rw [path_above p _ a a rfl hz]; omega
  obtain ⟨s, hs, h1⟩ := exists_ne_of_sum_ne (fun s : Pt × Pt => crossing s.1 s.2 p) (fun _ => 0) (sides ring) (by
    have e : ((sides ring).map fun _ => (0 : Int)).sum = 0 := by simp
    rw [e]; exact hsum)
  obtain ⟨t, ht, h2⟩ := exists_ne_of_sum_ne (fun s : Pt × Pt => crossing s.1 s.2 p) (fun s => above p s.2 - above p s.1) (sides ring)
    (by rw [hab]; exact hsum)
  obtain ⟨v, v1, v2, v3⟩ := crossing_at_right h1
  obtain ⟨u, u1, u2, u3⟩ := crossing_at_left (ho t ht) h2
  have ms := mem_of_sides hs
  have mt := mem_of_sides ht
  exact disc_between (disc_segment (hc _ mt.1) (hc _ mt.2) u1) (disc_segment (hc _ ms.1) (hc _ ms.2) v1) u2 v2 u3 v3

end Verif.Sampling
