import Verif.Quality.CentreLemmas
/-!
# Lemmas: the centre of a triangle lies in the triangle
-/
namespace Verif.Quality
open Verif.Polygons (Pt area2)

/-- The circumcentre of a triangle without obtuse angle is found to be inside. -/
theorem inNodes_of_area {p q r c : Pt} (vp : p.isValid = true) (vq : q.isValid = true) (vr : r.isValid = true) (fp : p.Finite) (fq : q.Finite)
    (fr : r.Finite) (h : 0 < area2 p q r) (h1 : 0 ≤ area2 p q c) (h2 : 0 ≤ area2 q r c) (h3 : 0 ≤ area2 r p c) :
    Polygons.inPolygonNodes [p, q, r, p] c = true := by
  have hin := inTriangle_of_area h h1 h2 h3
  have hbox : (Polygons.boundingBox [p, q, r, p]).contains c = true :=
    (Polygons.box_iff (by simp [vp, vq, vr]) (inTriangle_finite fp fq fr hin)).2 (inTriangle_inBox hin)
  unfold Polygons.inPolygonNodes
  simp only [List.head?_cons, List.getLast?_cons_cons, List.getLast?_singleton, Polygons.Pt.same_self, Bool.not_true, Bool.false_eq_true, if_false,
    hbox, List.length_cons, List.length_nil]
  rw [if_neg (by omega), if_neg (by omega), Polygons.nodesLoop_eq]
  have hs : Polygons.sides [p, q, r, p] = [(p, q), (q, r), (r, p)] := rfl
  rw [hs]
  by_cases hz : area2 p q c = 0 ∨ area2 q r c = 0 ∨ area2 r p c = 0
  · rw [Bool.or_eq_true]
    left
    rw [List.any_eq_true]
    rcases hz with hz | hz | hz
    · exact ⟨(p, q), by simp, by simpa using hz⟩
    · exact ⟨(q, r), by simp, by simpa using hz⟩
    · exact ⟨(r, p), by simp, by simpa using hz⟩
  · push Not at hz
    have p1 := lt_of_le_of_ne h1 hz.1.symm
    have p2 := lt_of_le_of_ne h2 hz.2.1.symm
    have p3 := lt_of_le_of_ne h3 hz.2.2.symm
    have cr : ∀ a b : Pt, 0 < area2 a b c → Polygons.crossing a b c = if a.y ≤ c.y ∧ c.y < b.y then 1 else 0 := by
      intro a b hab
      unfold Polygons.crossing
      rw [Polygons.cross_eq]
      by_cases ha : a.y ≤ c.y
      · rw [if_pos ha]
        by_cases hb : c.y < b.y
        · rw [if_pos ⟨hb, hab⟩, if_pos ⟨ha, hb⟩]
        · rw [if_neg (fun t => hb t.1), if_neg (fun t => hb t.2)]
      · rw [if_neg ha, if_neg (fun t => absurd t.2 (not_lt.2 hab.le)), if_neg (fun t => ha t.1)]
    rw [Bool.or_eq_true]
    right
    simp only [List.map_cons, List.map_nil, List.sum_cons, List.sum_nil, cr p q p1, cr q r p2, cr r p p3, decide_eq_true_eq]
    have id1 : area2 q r c * (c.y - p.y) + area2 r p c * (c.y - q.y) + area2 p q c * (c.y - r.y) = 0 := by unfold area2; ring
    have up : c.y < p.y ∨ c.y < q.y ∨ c.y < r.y := by
      by_contra hn
      push Not at hn
      obtain ⟨n1, n2, n3⟩ := hn
      have t1 := mul_nonneg p2.le (sub_nonneg.2 n1)
      have t2 := mul_nonneg p3.le (sub_nonneg.2 n2)
      have t3 := mul_nonneg p1.le (sub_nonneg.2 n3)
      have z1 : c.y - p.y = 0 := (mul_eq_zero.1 (by linarith : area2 q r c * (c.y - p.y) = 0)).resolve_left p2.ne'
      have z2 : c.y - q.y = 0 := (mul_eq_zero.1 (by linarith : area2 r p c * (c.y - q.y) = 0)).resolve_left p3.ne'
      have : area2 p q c = 0 := by
        unfold area2
        linear_combination (q.x - p.x) * z1 - (c.x - p.x) * (z1 - z2)
      exact p1.ne' this
    have down : p.y ≤ c.y ∨ q.y ≤ c.y ∨ r.y ≤ c.y := by
      by_contra hn
      push Not at hn
      obtain ⟨n1, n2, n3⟩ := hn
      have t1 := mul_pos p2 (sub_pos.2 n1)
      have t2 := mul_pos p3 (sub_pos.2 n2)
      have t3 := mul_pos p1 (sub_pos.2 n3)
      linarith
    by_cases a1 : p.y ≤ c.y <;> by_cases a2 : q.y ≤ c.y <;> by_cases a3 : r.y ≤ c.y
    all_goals simp only [a1, a2, a3, not_lt.2, not_le.1, true_and, false_and, if_false, if_true, not_false_eq_true]
    all_goals simp_all [not_lt.2, not_le]

theorem acute_centre {p q r : Pt} (vp : p.isValid = true) (vq : q.isValid = true) (vr : r.isValid = true) (fp : p.Finite) (fq : q.Finite)
    (fr : r.Finite) (h : 0 < area2 p q r) (hn : ¬ Obtuse p q r) : triangleCentre p q r = circumcentre p q r := by
  obtain ⟨a, b, c⟩ := circumcentre_sides h
  unfold Obtuse at hn
  push Not at hn
  obtain ⟨n1, n2, n3⟩ := hn
  unfold triangleCentre
  simp only []
  rw [if_pos]
  refine inNodes_of_area vp vq vr fp fq fr h ?_ ?_ ?_
  · by_contra hh; exact absurd (a.2.1 (not_le.1 hh)) (not_lt.2 n3)
  · by_contra hh; exact absurd (b.2.1 (not_le.1 hh)) (not_lt.2 n1)
  · by_contra hh; exact absurd (c.2.1 (not_le.1 hh)) (not_lt.2 n2)

theorem pullBack_mem {g c : Pt} : ∀ {l : List (Pt × Pt)}, (∃ s ∈ l, Cross.crossing g c s.1 s.2 = true) →
    ∃ s ∈ l, ∃ t : ℚ, 0 ≤ t ∧ t ≤ 1 ∧ (pullBack g c l).x = s.1.x + t * (s.2.x - s.1.x) ∧ (pullBack g c l).y = s.1.y + t * (s.2.y - s.1.y)
  | [], h => by simp at h
  | (a, b) :: l, h => by
    by_cases hc : Cross.crossing g c a b = true
    · rw [pullBack, if_pos hc]
      have hx := hc
      unfold Cross.crossing at hx
      split at hx
      · simp at hx
      · rename_i hd
        have hd0 : Cross.det g c a b ≠ 0 := by
          intro h0
          rw [h0, abs_zero] at hd
          exact hd (Cross.eps_pos g c a b)
        simp only [Bool.and_eq_true, decide_eq_true_eq] at hx
        obtain ⟨e1, e2⟩ := (Cross.ratio_iff hd0 _ _).2 ⟨rfl, rfl⟩
        exact ⟨(a, b), by simp, _, hx.1.2, hx.2, e1, e2⟩
    · rw [pullBack, if_neg hc]
      obtain ⟨s, hs, hcs⟩ := h
      rcases List.mem_cons.1 hs with rfl | hs
      · exact absurd hcs hc
      · obtain ⟨s', h1, h2⟩ := pullBack_mem ⟨s, hs, hcs⟩
        exact ⟨s', List.mem_cons_of_mem _ h1, h2⟩

/-- When the circumcentre lies beyond side `a b`, the way to it from the mean of the corners crosses this side. -/
theorem beyond_crosses {a b r c : Pt} (h : 0 < area2 a b r) (he : gap c a = gap c b) (hb : area2 a b c < 0) (h1 : 0 ≤ dotAt a b r)
    (h2 : 0 ≤ dotAt b a r) (ha : Cross.Apart (mean a b r) c a b) : Cross.crossing (mean a b r) c a b = true := by
  rw [Cross.crossing_iff]
  refine ⟨?_, ha⟩
  generalize hg : mean a b r = g at *
  have hgx : g.x = (a.x + b.x + r.x) / 3 := by rw [← hg]; rfl
  have hgy : g.y = (a.y + b.y + r.y) / 3 := by rw [← hg]; rfl
  have hga : area2 a b g = area2 a b r / 3 := by unfold area2; rw [hgx, hgy]; ring
  have hdet : Cross.det g c a b = area2 a b c - area2 a b g := by unfold Cross.det area2; ring
  have hdn : Cross.det g c a b < 0 := by rw [hdet, hga]; linarith
  obtain ⟨e1, e2⟩ := (Cross.ratio_iff hdn.ne _ _).2 ⟨rfl, rfl⟩
  have hs : Cross.ratioFirst g c a b = -area2 a b g / Cross.det g c a b := by
    unfold Cross.ratioFirst area2
    congr 1; ring
  have s0 : 0 ≤ Cross.ratioFirst g c a b := by
    rw [hs]
    exact div_nonneg_of_nonpos (by rw [hga]; linarith) hdn.le
  have s1 : Cross.ratioFirst g c a b ≤ 1 := by
    rw [hs, div_le_one_of_neg hdn, hdet]
    linarith
  generalize Cross.ratioFirst g c a b = s at *
  generalize Cross.ratioSecond g c a b = t at *
  have n1 : a ≠ b := by rintro rfl; exact h.ne' (by unfold area2; ring)
  have hG := gap_pos n1
  have hc : 2 * dotAt a b c = gap a b := by
    unfold gap at he ⊢
    unfold dotAt
    linear_combination he
  have hgd : 3 * dotAt a b g = gap a b + dotAt a b r := by
    unfold dotAt gap; rw [hgx, hgy]; ring
  have hbr : dotAt b a r = gap a b - dotAt a b r := by unfold dotAt gap; ring
  have ht : t * gap a b = (1 - s) * dotAt a b g + s * dotAt a b c := by
    unfold dotAt gap
    linear_combination -(b.x - a.x) * e1 - (b.y - a.y) * e2
  refine ⟨s, t, s0, s1, ?_, ?_, e1, e2⟩
  · by_contra hn
    have hn := not_le.1 hn
    nlinarith [mul_pos (neg_pos.2 hn) hG, mul_nonneg s0 hG.le, mul_nonneg (sub_nonneg.2 s1) hG.le, mul_nonneg (sub_nonneg.2 s1) h1]
  · by_contra hn
    have hn := not_le.1 hn
    nlinarith [mul_pos (sub_pos.2 hn) hG, mul_nonneg s0 hG.le, mul_nonneg (sub_nonneg.2 s1) hG.le, mul_nonneg (sub_nonneg.2 s1) h2]

theorem mean_turn (p q r : Pt) : mean q r p = mean p q r ∧ mean r p q = mean p q r := by
  constructor
  · unfold mean; congr 1 <;> ring
  · unfold mean; congr 1 <;> ring

/-- The circumcentre of an obtuse triangle is found to be outside. -/
theorem notInNodes_of_obtuse {p q r c : Pt} (vp : p.isValid = true) (vq : q.isValid = true) (vr : r.isValid = true) (vc : c.isValid = true)
    (fc : c.Finite) (h : 0 < area2 p q r) (h0 : area2 p q c < 0 ∨ area2 q r c < 0 ∨ area2 r p c < 0)
    (hne : area2 p q c ≠ 0 ∧ area2 q r c ≠ 0 ∧ area2 r p c ≠ 0) : Polygons.inPolygonNodes [p, q, r, p] c = false := by
  obtain ⟨b, h1, h2⟩ := Polygons.triangle_contains_iff p q r c h.ne' vp vq vr vc fc
  have hr : Polygons.RingNodes [p, q, r, p] := ⟨by simp, by simp, by simp [vp, vq, vr]⟩
  have hs : Polygons.sides [p, q, r, p] = [(p, q), (q, r), (r, p)] := rfl
  rw [Polygons.nodes_test_agrees_partial _ hr c vc fc (by rw [hs]; simpa using hne)] at h1
  obtain rfl := Res.ok.inj h1
  rw [← Bool.not_eq_true, h2]
  rintro ⟨u, v, w, hu, hv, hw, hsum, hx, hy⟩
  have e1 : area2 p q c = w * area2 p q r := by
    unfold area2; rw [hx, hy]
    linear_combination ((q.x - p.x) * p.y - (q.y - p.y) * p.x) * hsum
  have e2 : area2 q r c = u * area2 p q r := by
    unfold area2; rw [hx, hy]
    linear_combination ((r.x - q.x) * q.y - (r.y - q.y) * q.x) * hsum
  have e3 : area2 r p c = v * area2 p q r := by
    unfold area2; rw [hx, hy]
    linear_combination ((p.x - r.x) * r.y - (p.y - r.y) * r.x) * hsum
  rcases h0 with h0 | h0 | h0
  · rw [e1] at h0; exact absurd h0 (not_lt.2 (mul_nonneg hw h.le))
  · rw [e2] at h0; exact absurd h0 (not_lt.2 (mul_nonneg hu h.le))
  · rw [e3] at h0; exact absurd h0 (not_lt.2 (mul_nonneg hv h.le))

theorem onSide_inTriangle {p q r x : Pt} {s : Pt × Pt} (hs : s ∈ [(p, q), (q, r), (r, p)]) {t : ℚ} (h0 : 0 ≤ t) (h1 : t ≤ 1)
    (hx : x.x = s.1.x + t * (s.2.x - s.1.x)) (hy : x.y = s.1.y + t * (s.2.y - s.1.y)) : InTriangle p q r x := by
  simp only [List.mem_cons, List.not_mem_nil, or_false] at hs
  rcases hs with rfl | rfl | rfl
  · exact ⟨1 - t, t, 0, by linarith, h0, le_refl _, by ring, by rw [hx]; ring, by rw [hy]; ring⟩
  · exact ⟨0, 1 - t, t, le_refl _, by linarith, h0, by ring, by rw [hx]; ring, by rw [hy]; ring⟩
  · exact ⟨t, 0, 1 - t, h0, le_refl _, by linarith, by ring, by rw [hx]; ring, by rw [hy]; ring⟩

end Verif.Quality
