import Verif.TriInterp.Spec
import Verif.Polygons.ContainsProps
import Verif.Cross.SegmentLemmas
import Mathlib.Tactic.LinearCombination
/-!
# Lemmas: triangles, lines and planes
-/
namespace Verif.TriInterp
open Verif.Mesh
open Verif.Polygons (Pt area2 OnSegment InBox sides inPolygonNodes)
open Verif.Sampling (Spot)

/-- Twice the area of the triangle. -/
def Tri.area (x : Tri) : ℚ := area2 x.a.pos x.b.pos x.c.pos

theorem areas_sum (a b c p : Pt) : area2 b c p + area2 c a p + area2 a b p = area2 a b c := by unfold area2; ring

theorem area_rotate (a b c : Pt) : area2 b c a = area2 a b c := by unfold area2; ring

theorem area_swap (a b c : Pt) : area2 b a c = -area2 a b c := by unfold area2; ring

theorem area_first (a b : Pt) : area2 a b a = 0 := by unfold area2; ring

theorem area_second (a b : Pt) : area2 a b b = 0 := by unfold area2; ring

theorem area_mix {a b p u v w : Pt} {r s t : ℚ} (h : r + s + t = 1) (hx : p.x = r * u.x + s * v.x + t * w.x) (hy : p.y = r * u.y + s * v.y + t * w.y) :
    area2 a b p = r * area2 a b u + s * area2 a b v + t * area2 a b w := by
  unfold area2
  rw [hx, hy]
  linear_combination (-(b.x - a.x) * a.y + (b.y - a.y) * a.x) * (-h)

/-- The value of the linear function through the corners. -/
def Tri.formula (x : Tri) (p : Pt) : ℚ :=
  (area2 x.b.pos x.c.pos p * x.a.value + area2 x.c.pos x.a.pos p * x.b.value + area2 x.a.pos x.b.pos p * x.c.value) / x.area

theorem mean_of_areas {x : Tri} {p : Pt} (hA : 0 < x.area) (h1 : 0 ≤ area2 x.b.pos x.c.pos p) (h2 : 0 ≤ area2 x.c.pos x.a.pos p)
    (h3 : 0 ≤ area2 x.a.pos x.b.pos p) : x.Mean p (x.formula p) := by
  refine ⟨area2 x.b.pos x.c.pos p / x.area, area2 x.c.pos x.a.pos p / x.area, area2 x.a.pos x.b.pos p / x.area, div_nonneg h1 hA.le, div_nonneg h2 hA.le,
    div_nonneg h3 hA.le, ?_, ?_, ?_, ?_⟩
  · rw [← add_div, ← add_div, areas_sum]; exact div_self hA.ne'
  · have : p.x * x.area = area2 x.b.pos x.c.pos p * x.a.pos.x + area2 x.c.pos x.a.pos p * x.b.pos.x + area2 x.a.pos x.b.pos p * x.c.pos.x := by
      unfold Tri.area area2; ring
    field_simp
    linear_combination this
  · have : p.y * x.area = area2 x.b.pos x.c.pos p * x.a.pos.y + area2 x.c.pos x.a.pos p * x.b.pos.y + area2 x.a.pos x.b.pos p * x.c.pos.y := by
      unfold Tri.area area2; ring
    field_simp
    linear_combination this
  · unfold Tri.formula
    field_simp

theorem weights_of {x : Tri} {p : Pt} {r s t : ℚ} (h : r + s + t = 1) (hx : p.x = r * x.a.pos.x + s * x.b.pos.x + t * x.c.pos.x)
    (hy : p.y = r * x.a.pos.y + s * x.b.pos.y + t * x.c.pos.y) :
    area2 x.b.pos x.c.pos p = r * x.area ∧ area2 x.c.pos x.a.pos p = s * x.area ∧ area2 x.a.pos x.b.pos p = t * x.area := by
  unfold Tri.area
  refine ⟨?_, ?_, ?_⟩
  · rw [area_mix h hx hy, area_first, area_second, area_rotate]; ring
  · rw [area_mix h hx hy, area_first, area_second, area_rotate, area_rotate]; ring
  · rw [area_mix h hx hy, area_first, area_second]; ring

theorem contains_iff {x : Tri} {p : Pt} (hA : 0 < x.area) :
    x.Contains p ↔ 0 ≤ area2 x.b.pos x.c.pos p ∧ 0 ≤ area2 x.c.pos x.a.pos p ∧ 0 ≤ area2 x.a.pos x.b.pos p := by
  constructor
  · rintro ⟨v, r, s, t, h1, h2, h3, h4, h5, h6, -⟩
    obtain ⟨w1, w2, w3⟩ := weights_of h4 h5 h6
    rw [w1, w2, w3]
    exact ⟨mul_nonneg h1 hA.le, mul_nonneg h2 hA.le, mul_nonneg h3 hA.le⟩
  · rintro ⟨h1, h2, h3⟩
    exact ⟨_, mean_of_areas hA h1 h2 h3⟩

theorem mean_unique {x : Tri} {p : Pt} {v : ℚ} (hA : 0 < x.area) (h : x.Mean p v) : v = x.formula p := by
  obtain ⟨r, s, t, -, -, -, h4, h5, h6, h7⟩ := h
  obtain ⟨w1, w2, w3⟩ := weights_of h4 h5 h6
  unfold Tri.formula
  rw [w1, w2, w3, h7]
  have := hA.ne'
  field_simp

theorem linear_eq {x : Tri} (p : Pt) (hA : 1 / 1000000000000 ≤ x.area) : linear x p = some (x.formula p) := by
  have h0 : 0 < x.area := lt_of_lt_of_le (by norm_num) hA
  have hdet : (x.b.pos.x - x.a.pos.x) * (x.c.pos.y - x.a.pos.y) - (x.c.pos.x - x.a.pos.x) * (x.b.pos.y - x.a.pos.y) = x.area := by
    unfold Tri.area area2; ring
  unfold linear
  simp only [hdet]
  rw [if_neg (by rw [abs_of_pos h0]; exact not_lt.2 hA)]
  congr 1
  unfold Tri.formula
  have hs : area2 x.b.pos x.c.pos p = x.area - area2 x.c.pos x.a.pos p - area2 x.a.pos x.b.pos p := by
    have := areas_sum x.a.pos x.b.pos x.c.pos p
    unfold Tri.area; linarith
  have h1 : (x.c.pos.y - x.a.pos.y) * (p.x - x.a.pos.x) - (x.c.pos.x - x.a.pos.x) * (p.y - x.a.pos.y) = area2 x.c.pos x.a.pos p := by unfold area2; ring
  have h2 : -(x.b.pos.y - x.a.pos.y) * (p.x - x.a.pos.x) + (x.b.pos.x - x.a.pos.x) * (p.y - x.a.pos.y) = area2 x.a.pos x.b.pos p := by unfold area2; ring
  rw [h1, h2, hs]
  field_simp
  ring

theorem sides_ring (x : Tri) : sides x.ring = [(x.a.pos, x.b.pos), (x.b.pos, x.c.pos), (x.c.pos, x.a.pos)] := rfl

theorem contains_inBox {x : Tri} {p : Pt} (h : x.Contains p) : InBox x.ring p := by
  obtain ⟨v, r, s, t, h1, h2, h3, h4, h5, h6, -⟩ := h
  have low : ∀ u v w q : ℚ, q = r * u + s * v + t * w → u ≤ q ∨ v ≤ q ∨ w ≤ q := by
    intro u v w q hq
    by_contra hc
    push Not at hc
    have hq1 : r * q + s * q + t * q = q := by rw [← add_mul, ← add_mul, h4, one_mul]
    have := mul_le_mul_of_nonneg_left hc.1.le h1
    have := mul_le_mul_of_nonneg_left hc.2.1.le h2
    have := mul_le_mul_of_nonneg_left hc.2.2.le h3
    rcases lt_or_eq_of_le h1 with hr | hr
    · have := mul_lt_mul_of_pos_left hc.1 hr
      linarith
    · rcases lt_or_eq_of_le h2 with hr2 | hr2
      · have := mul_lt_mul_of_pos_left hc.2.1 hr2
        linarith
      · have ht : t = 1 := by linarith
        subst ht
        rw [← hr, ← hr2] at hq
        linarith [hc.2.2]
  have high : ∀ u v w q : ℚ, q = r * u + s * v + t * w → q ≤ u ∨ q ≤ v ∨ q ≤ w := by
    intro u v w q hq
    have := low (-u) (-v) (-w) (-q) (by rw [hq]; ring)
    simpa using this
  unfold InBox Tri.ring
  refine ⟨?_, ?_, ?_, ?_⟩
  · rcases low _ _ _ _ h5 with h | h | h
    · exact ⟨_, by simp, h⟩
    · exact ⟨x.b.pos, by simp, h⟩
    · exact ⟨x.c.pos, by simp, h⟩
  · rcases high _ _ _ _ h5 with h | h | h
    · exact ⟨_, by simp, h⟩
    · exact ⟨x.b.pos, by simp, h⟩
    · exact ⟨x.c.pos, by simp, h⟩
  · rcases low _ _ _ _ h6 with h | h | h
    · exact ⟨_, by simp, h⟩
    · exact ⟨x.b.pos, by simp, h⟩
    · exact ⟨x.c.pos, by simp, h⟩
  · rcases high _ _ _ _ h6 with h | h | h
    · exact ⟨_, by simp, h⟩
    · exact ⟨x.b.pos, by simp, h⟩
    · exact ⟨x.c.pos, by simp, h⟩

theorem onSide_contains {x : Tri} {p : Pt} {s : Pt × Pt} (hs : s ∈ sides x.ring) (h : OnSegment s.1 s.2 p) : x.Contains p := by
  obtain ⟨t, h0, h1, hx, hy⟩ := h
  rw [sides_ring] at hs
  simp only [List.mem_cons, List.not_mem_nil, or_false] at hs
  rcases hs with rfl | rfl | rfl
  · exact ⟨_, 1 - t, t, 0, by linarith, h0, le_rfl, by ring, by simp only at hx; linarith, by simp only at hy; linarith, rfl⟩
  · exact ⟨_, 0, 1 - t, t, le_rfl, by linarith, h0, by ring, by simp only at hx; linarith, by simp only at hy; linarith, rfl⟩
  · exact ⟨_, t, 0, 1 - t, h0, le_rfl, by linarith, by ring, by simp only at hx; linarith, by simp only at hy; linarith, rfl⟩

theorem inNodes_iff {x : Tri} {p : Pt} (hA : 0 < x.area) (ha : x.a.pos.isValid = true) (hb : x.b.pos.isValid = true) (hc : x.c.pos.isValid = true)
    (hv : p.isValid = true) (hp : p.Finite) (hfair : InBox x.ring p → ∀ s ∈ sides x.ring, area2 s.1 s.2 p = 0 → OnSegment s.1 s.2 p) :
    inPolygonNodes x.ring p = true ↔ x.Contains p := by
  classical
  have hval : ∀ q ∈ x.ring, q.isValid = true := by unfold Tri.ring; simp [ha, hb, hc]
  by_cases hz : ∃ s ∈ sides x.ring, area2 s.1 s.2 p = 0
  · have : inPolygonNodes x.ring p = (Polygons.boundingBox x.ring).contains p := by
      have hloop : Polygons.nodesLoop p x.ring 0 = true := by
        rw [Polygons.nodesLoop_eq, Bool.or_eq_true]
        left
        rw [List.any_eq_true]
        obtain ⟨s, hs, h⟩ := hz
        exact ⟨s, hs, by simpa using h⟩
      unfold inPolygonNodes
      have h1 : x.ring.head? = some x.a.pos := rfl
      have h2 : x.ring.getLast? = some x.a.pos := rfl
      rw [h1, h2]
      simp only [Polygons.Pt.same_self, Bool.not_true, Bool.false_eq_true, if_false]
      rw [if_neg (by simp [Tri.ring]), if_neg (by simp [Tri.ring]), hloop]
      cases (Polygons.boundingBox x.ring).contains p <;> simp
    rw [this, Polygons.box_iff hval hp]
    obtain ⟨s, hs, h⟩ := hz
    exact ⟨fun hbox => onSide_contains hs (hfair hbox s hs h), contains_inBox⟩
  · push Not at hz
    have hr : Polygons.RingNodes x.ring := ⟨by simp [Tri.ring], rfl, hval⟩
    have h1 := Polygons.nodes_test_agrees_partial x.ring hr p hv hp hz
    obtain ⟨r, h2, h3⟩ := Polygons.triangle_contains_iff x.a.pos x.b.pos x.c.pos p hA.ne' ha hb hc hv hp
    have h4 : Polygons.ringContains x.ring p = .ok r := h2
    rw [h1] at h4
    rw [Res.ok.inj h4, h3]
    constructor
    · rintro ⟨u, v, w, g1, g2, g3, g4, g5, g6⟩
      exact ⟨_, u, v, w, g1, g2, g3, g4, g5, g6, rfl⟩
    · rintro ⟨_, u, v, w, g1, g2, g3, g4, g5, g6, -⟩
      exact ⟨u, v, w, g1, g2, g3, g4, g5, g6⟩

/-! ## Leaving a triangle -/

theorem centre_eq (x : Tri) : x.centre = heart x := by
  unfold Tri.centre average heart Tri.ring
  congr 1
  · simp; ring
  · simp; ring

theorem heart_areas (x : Tri) : area2 x.b.pos x.c.pos (heart x) = x.area / 2 ∧ area2 x.c.pos x.a.pos (heart x) = x.area / 4 ∧
    area2 x.a.pos x.b.pos (heart x) = x.area / 4 := by
  unfold heart Tri.area area2
  refine ⟨?_, ?_, ?_⟩ <;> ring

theorem meet_swap {p q a b : Pt} : Cross.Meet p q a b ↔ Cross.Meet p q b a := by
  constructor <;>
  · rintro ⟨s, t, h1, h2, h3, h4, h5, h6⟩
    exact ⟨s, 1 - t, h1, h2, by linarith, by linarith, by linarith, by linarith⟩

theorem apart_swap {p q a b : Pt} : Cross.Apart p q a b ↔ Cross.Apart p q b a := by
  unfold Cross.Apart Cross.eps
  have h1 : Cross.det p q b a = -Cross.det p q a b := by unfold Cross.det; ring
  rw [h1, abs_neg, abs_sub_comm a.x b.x, abs_sub_comm a.y b.y]

theorem crossing_swap (p q a b : Pt) : Cross.crossing p q a b = Cross.crossing p q b a := by
  rw [Bool.eq_iff_iff, Cross.crossing_iff, Cross.crossing_iff, meet_swap, apart_swap]

theorem area_along {q p a b m : Pt} {s : ℚ} (hx : m.x = q.x + s * (p.x - q.x)) (hy : m.y = q.y + s * (p.y - q.y)) :
    area2 a b m = (1 - s) * area2 a b q + s * area2 a b p := by
  unfold area2
  rw [hx, hy]; ring

/-- Beyond a side that the line to the location meets. -/
theorem beyond {q p a b : Pt} (hq : 0 < area2 a b q) (h : Cross.Meet q p a b) : area2 a b p ≤ 0 ∧ (area2 a b p = 0 → OnSegment a b p) := by
  obtain ⟨s, t, h1, h2, h3, h4, h5, h6⟩ := h
  have hm : (1 - s) * area2 a b q + s * area2 a b p = 0 := by
    rw [← area_along (m := ⟨q.x + s * (p.x - q.x), q.y + s * (p.y - q.y)⟩) rfl rfl]
    rw [h5, h6]
    unfold area2; ring
  have hs : 0 < s := by
    rcases lt_or_eq_of_le h1 with h | h
    · exact h
    · rw [← h] at hm; linarith
  constructor
  · by_contra hc
    push Not at hc
    have := mul_pos hs hc
    have := mul_nonneg (by linarith : 0 ≤ 1 - s) hq.le
    linarith
  · intro h0
    rw [h0, mul_zero, add_zero] at hm
    have : 1 - s = 0 := by
      rcases mul_eq_zero.1 hm with h | h
      · exact h
      · linarith
    have hs1 : s = 1 := by linarith
    subst hs1
    exact ⟨t, h3, h4, by linarith, by linarith⟩

/-- The line to a location beyond a side meets it if it keeps inside the other two. -/
theorem meet_of_first {a b c q p : Pt} (hA : 0 < area2 a b c) (hq : 0 < area2 a b q) (hp : area2 a b p < 0)
    (h1 : area2 b c q * area2 a b p ≤ area2 a b q * area2 b c p) (h2 : area2 c a q * area2 a b p ≤ area2 a b q * area2 c a p) :
    Cross.Meet q p a b := by
  have hd : 0 < area2 a b q - area2 a b p := by linarith
  obtain ⟨s, hs⟩ : ∃ s, s = area2 a b q / (area2 a b q - area2 a b p) := ⟨_, rfl⟩
  have hs' : s * (area2 a b q - area2 a b p) = area2 a b q := by rw [hs]; field_simp
  obtain ⟨m, hm⟩ : ∃ m : Pt, m = ⟨q.x + s * (p.x - q.x), q.y + s * (p.y - q.y)⟩ := ⟨_, rfl⟩
  have hmx : m.x = q.x + s * (p.x - q.x) := by rw [hm]
  have hmy : m.y = q.y + s * (p.y - q.y) := by rw [hm]
  have k0 : area2 a b m = 0 := by rw [area_along hmx hmy]; linarith
  have k1 : 0 ≤ area2 b c m := by
    rw [area_along hmx hmy]
    have : (1 - s) * area2 b c q + s * area2 b c p = (area2 a b q * area2 b c p - area2 b c q * area2 a b p) / (area2 a b q - area2 a b p) := by
      rw [hs]; field_simp; ring
    rw [this]
    exact div_nonneg (by linarith) hd.le
  have k2 : 0 ≤ area2 c a m := by
    rw [area_along hmx hmy]
    have : (1 - s) * area2 c a q + s * area2 c a p = (area2 a b q * area2 c a p - area2 c a q * area2 a b p) / (area2 a b q - area2 a b p) := by
      rw [hs]; field_simp; ring
    rw [this]
    exact div_nonneg (by linarith) hd.le
  have ksum := areas_sum a b c m
  refine ⟨s, area2 c a m / area2 a b c, by rw [hs]; exact div_nonneg hq.le hd.le, ?_, div_nonneg k2 hA.le, ?_, ?_, ?_⟩
  · rw [hs, div_le_one hd]; linarith
  · rw [div_le_one hA]; linarith
  · rw [← hmx]
    have : m.x * area2 a b c = area2 b c m * a.x + area2 c a m * b.x + area2 a b m * c.x := by unfold area2; ring
    rw [k0] at this
    field_simp
    have e : area2 b c m = area2 a b c - area2 c a m := by linarith
    rw [e] at this
    linarith
  · rw [← hmy]
    have : m.y * area2 a b c = area2 b c m * a.y + area2 c a m * b.y + area2 a b m * c.y := by unfold area2; ring
    rw [k0] at this
    field_simp
    have e : area2 b c m = area2 a b c - area2 c a m := by linarith
    rw [e] at this
    linarith

/-- The line from inside a triangle to a location outside meets a side. -/
theorem exit {a b c q p : Pt} (hA : 0 < area2 a b c) (h1 : 0 < area2 a b q) (h2 : 0 < area2 b c q) (h3 : 0 < area2 c a q)
    (hout : ¬ (0 ≤ area2 b c p ∧ 0 ≤ area2 c a p ∧ 0 ≤ area2 a b p)) :
    Cross.Meet q p a b ∨ Cross.Meet q p b c ∨ Cross.Meet q p c a := by
  have key : ∀ u v w x : ℚ, 0 < u → 0 < v → w / u ≤ x / v → v * w ≤ u * x := by
    intro u v w x hu hv h
    rw [div_le_div_iff₀ hu hv] at h
    linarith
  have neg : ∀ u w : ℚ, 0 < u → w / u < 0 → w < 0 := by
    intro u w hu h
    by_contra hc
    exact absurd (div_nonneg (not_lt.1 hc) hu.le) (not_le.2 h)
  have hneg : area2 a b p / area2 a b q < 0 ∨ area2 b c p / area2 b c q < 0 ∨ area2 c a p / area2 c a q < 0 := by
    by_contra hc
    push Not at hc
    apply hout
    obtain ⟨g1, g2, g3⟩ := hc
    have nn : ∀ u w : ℚ, 0 < u → 0 ≤ w / u → 0 ≤ w := by
      intro u w hu h
      by_contra hc
      exact absurd (div_neg_of_neg_of_pos (not_le.1 hc) hu) (not_lt.2 h)
    exact ⟨nn _ _ h2 g2, nn _ _ h3 g3, nn _ _ h1 g1⟩
  have first : area2 a b p / area2 a b q ≤ area2 b c p / area2 b c q → area2 a b p / area2 a b q ≤ area2 c a p / area2 c a q →
      area2 a b p / area2 a b q < 0 → Cross.Meet q p a b := fun e1 e2 e3 =>
    meet_of_first hA h1 (neg _ _ h1 e3) (key _ _ _ _ h1 h2 e1) (key _ _ _ _ h1 h3 e2)
  have second : area2 b c p / area2 b c q ≤ area2 c a p / area2 c a q → area2 b c p / area2 b c q ≤ area2 a b p / area2 a b q →
      area2 b c p / area2 b c q < 0 → Cross.Meet q p b c := fun e1 e2 e3 =>
    meet_of_first (by rw [area_rotate]; exact hA) h2 (neg _ _ h2 e3) (key _ _ _ _ h2 h3 e1) (key _ _ _ _ h2 h1 e2)
  have third : area2 c a p / area2 c a q ≤ area2 a b p / area2 a b q → area2 c a p / area2 c a q ≤ area2 b c p / area2 b c q →
      area2 c a p / area2 c a q < 0 → Cross.Meet q p c a := fun e1 e2 e3 =>
    meet_of_first (by rw [area_rotate, area_rotate]; exact hA) h3 (neg _ _ h3 e3) (key _ _ _ _ h3 h1 e1) (key _ _ _ _ h3 h2 e2)
  rcases le_total (area2 a b p / area2 a b q) (area2 b c p / area2 b c q) with e1 | e1
  · rcases le_total (area2 a b p / area2 a b q) (area2 c a p / area2 c a q) with e2 | e2
    · exact .inl (first e1 e2 (by rcases hneg with h | h | h <;> linarith))
    · exact .inr (.inr (third e2 (by linarith) (by rcases hneg with h | h | h <;> linarith)))
  · rcases le_total (area2 b c p / area2 b c q) (area2 c a p / area2 c a q) with e2 | e2
    · exact .inr (.inl (second e2 e1 (by rcases hneg with h | h | h <;> linarith)))
    · exact .inr (.inr (third (by linarith) e2 (by rcases hneg with h | h | h <;> linarith)))

/-! ## Planes -/

theorem plane_rotate (P : Nat → Pt) (h : Nat → ℚ) (i j k : Nat) (q : Pt) : plane P h (j, k, i) q = plane P h (i, j, k) q := by
  unfold plane
  simp only [area_rotate]
  congr 1
  ring

/-- Behind the common side the plane of the neighbour is higher. -/
theorem plane_lt {P : Nat → Pt} {h : Nat → ℚ} {x y z d : Nat} {p : Pt} (hf : 0 < area2 (P x) (P y) (P z)) (hg : 0 < area2 (P y) (P x) (P d))
    (hd : plane P h (x, y, z) (P d) < h d) (hp : area2 (P x) (P y) p < 0) : plane P h (x, y, z) p < plane P h (y, x, d) p := by
  have key : (plane P h (y, x, d) p - plane P h (x, y, z) p) * area2 (P y) (P x) (P d) = (h d - plane P h (x, y, z) (P d)) * -area2 (P x) (P y) p := by
    unfold plane
    simp only
    have e1 := hf.ne'
    have e2 := hg.ne'
    field_simp
    unfold area2
    ring
  have : 0 < (plane P h (y, x, d) p - plane P h (x, y, z) p) * area2 (P y) (P x) (P d) := by
    rw [key]; exact mul_pos (by linarith) (by linarith)
  by_contra hc
  have := mul_nonneg (by linarith : 0 ≤ plane P h (x, y, z) p - plane P h (y, x, d) p) hg.le
  linarith

end Verif.TriInterp
