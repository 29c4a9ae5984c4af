import Verif.TriInterp.WalkLemmas
/-!
# Lemmas: the values at the locations
-/
namespace Verif.TriInterp
open Verif.Mesh
open Verif.Polygons (Pt area2 OnSegment InBox sides inPolygonNodes)
open Verif.Sampling (Spot)

theorem Proper.samples_ne {T : Tables} {ss : List Spot} (hP : Proper T ss) : ss ≠ [] := by
  rintro rfl
  obtain ⟨t, ht⟩ := List.exists_mem_of_ne_nil _ hP.nonempty
  have := hP.corners t ht t.1 (by simp [three])
  simp at this

theorem Proper.contains_box {T : Tables} {ss : List Spot} {p : Pt} {f : Nat} {x : Tri} (hx : triAt T ss f = some x) (h : x.Contains p) :
    InBox (ss.map (·.pos)) p := by
  obtain ⟨t, -, h2, h3, h4⟩ := triAt_some hx
  have hb := contains_inBox h
  have hsub : ∀ q ∈ x.ring, q ∈ ss.map (·.pos) := by
    intro q hq
    unfold Tri.ring at hq
    simp only [List.mem_cons, List.not_mem_nil, or_false] at hq
    rw [List.mem_map]
    rcases hq with rfl | rfl | rfl | rfl
    · exact ⟨_, List.mem_of_getElem? h2, rfl⟩
    · exact ⟨_, List.mem_of_getElem? h3, rfl⟩
    · exact ⟨_, List.mem_of_getElem? h4, rfl⟩
    · exact ⟨_, List.mem_of_getElem? h2, rfl⟩
  obtain ⟨⟨a, a1, a2⟩, ⟨b, b1, b2⟩, ⟨c, c1, c2⟩, ⟨d, d1, d2⟩⟩ := hb
  exact ⟨⟨a, hsub a a1, a2⟩, ⟨b, hsub b b1, b2⟩, ⟨c, hsub c c1, c2⟩, ⟨d, hsub d d1, d2⟩⟩

theorem Proper.positions_valid {T : Tables} {ss : List Spot} (hP : Proper T ss) : ∀ q ∈ ss.map (·.pos), q.isValid = true := by
  intro q hq
  obtain ⟨s, hs, rfl⟩ := List.mem_map.1 hq
  exact hP.valid s hs

/-- The value at a location: missing, or linear in a triangle that contains it as far as the test of the program goes. -/
theorem valueAt_total {T : Tables} {ss : List Spot} {D : Data} (hP : Proper T ss) (hF : Fits T ss D) (nearest : List Pt → Pt → Option Nat) (p : Pt) :
    ∃ r, valueAt nearest D p = .ok r ∧ ∀ v, r = some v → ∃ f x, triAt T ss f = some x ∧ inPolygonNodes x.ring p = true ∧ v = x.formula p := by
  unfold valueAt
  split
  · exact ⟨none, rfl, by simp⟩
  · split
    · exact ⟨none, rfl, by simp⟩
    · rename_i t _
      obtain ⟨r, h1, h2⟩ := search_sound hP hF p (2 * D.tris.length) t
      rw [h1, Res.ok_bind]
      cases r with
      | none => exact ⟨none, rfl, by simp⟩
      | some g =>
        obtain ⟨x, h3, h4⟩ := h2 g rfl
        simp only
        rw [vget_some (by rw [hF.tris, h3]), Res.ok_bind, linear_eq p (hP.area h3)]
        exact ⟨_, rfl, fun v hv => ⟨g, x, h3, h4, (Option.some.inj hv).symm⟩⟩

theorem valueAt_fair {T : Tables} {ss : List Spot} {D : Data} (hP : Proper T ss) (hF : Fits T ss D) {nearest : List Pt → Pt → Option Nat} {p : Pt}
    (hC : Fair T ss p) {v : ℚ} (h : valueAt nearest D p = .ok (some v)) : ∃ f x, triAt T ss f = some x ∧ x.Mean p v := by
  obtain ⟨r, h1, h2⟩ := valueAt_total hP hF nearest p
  rw [h] at h1
  obtain ⟨f, x, h3, h4, h5⟩ := h2 v (Res.ok.inj h1).symm
  have hin := (contains_iff (hP.area_pos h3)).1 ((hP.inside_iff hC h3).1 h4)
  exact ⟨f, x, h3, by rw [h5]; exact mean_of_areas (hP.area_pos h3) hin.1 hin.2.1 hin.2.2⟩

theorem valueAt_box {T : Tables} {ss : List Spot} {D : Data} (hP : Proper T ss) (hF : Fits T ss D) {nearest : List Pt → Pt → Option Nat} {p : Pt}
    (hp : p.Finite) (hb : ¬ InBox (ss.map (·.pos)) p) : valueAt nearest D p = .ok none := by
  unfold valueAt
  rw [hF.samples]
  have : (Polygons.boundingBox (ss.map (·.pos))).contains p = false := by
    rcases Bool.eq_false_or_eq_true ((Polygons.boundingBox (ss.map (·.pos))).contains p) with h | h
    · exact absurd ((Polygons.box_iff hP.positions_valid hp).1 h) hb
    · exact h
  rw [this]
  rfl

theorem valueAt_clear {T : Tables} {ss : List Spot} {D : Data} (hP : Proper T ss) (hF : Fits T ss D) (hR : Regular T ss)
    {nearest : List Pt → Pt → Option Nat} (hN : Finds nearest) {p : Pt} (hC : Clear T ss p) :
    ((∃ f x, triAt T ss f = some x ∧ x.Contains p) → ∃ f x v, triAt T ss f = some x ∧ x.Mean p v ∧ valueAt nearest D p = .ok (some v)) ∧
      ((∀ f x, triAt T ss f = some x → ¬ x.Contains p) → valueAt nearest D p = .ok none) := by
  constructor
  · rintro ⟨f, x, hx, hin⟩
    obtain ⟨h, hh⟩ := hR
    have hbox : (Polygons.boundingBox (ss.map (·.pos))).contains p = true :=
      (Polygons.box_iff hP.positions_valid hC.finite).2 (Proper.contains_box hx hin)
    have hlen : 0 < T.faceNodes.length := List.length_pos_iff.2 hP.nonempty
    obtain ⟨t, ht, hnt⟩ := hN (D.tris.map Tri.centre) p (by
      rw [← List.length_pos_iff, List.length_map, hF.len]; exact hlen)
    rw [List.length_map, hF.len] at ht
    have hcard := above_card (T := T) (ss := ss) (h := h) (p := p) (f := t)
    rcases search_ok hP hF hh hC (2 * D.tris.length) t ht (by rw [hF.len]; omega) with ⟨g, y, h1, h2, h3⟩ | ⟨-, h2⟩
    · refine ⟨g, y, y.formula p, h2, ?_, ?_⟩
      · have hy := (contains_iff (hP.area_pos h2)).1 h3
        exact mean_of_areas (hP.area_pos h2) hy.1 hy.2.1 hy.2.2
      · unfold valueAt
        rw [hF.samples, hbox, hnt]
        simp only [Bool.not_true, Bool.false_eq_true, if_false]
        rw [h1, Res.ok_bind]
        simp only
        rw [vget_some (by rw [hF.tris, h2]), Res.ok_bind, linear_eq p (hP.area h2)]
    · exact absurd hin (h2 f x hx)
  · intro hout
    obtain ⟨r, h1, h2⟩ := valueAt_total hP hF nearest p
    cases r with
    | none => exact h1
    | some v =>
      obtain ⟨f, x, h3, h4, -⟩ := h2 v rfl
      exact absurd ((hP.inside_iff hC.toFair h3).1 h4) (hout f x h3)

theorem valuesAt_ok {nearest : List Pt → Pt → Option Nat} {D : Data} : ∀ (ps : List Pt), (∀ p ∈ ps, ∃ r, valueAt nearest D p = .ok r) →
    ∃ vs, valuesAt nearest D ps = .ok vs ∧ vs.length = ps.length ∧
      ∀ (i : Nat) p, ps[i]? = some p → ∃ r, vs[i]? = some r ∧ valueAt nearest D p = .ok r
  | [], _ => ⟨[], rfl, rfl, by simp⟩
  | p :: ps, h => by
    obtain ⟨r, h1⟩ := h p (by simp)
    obtain ⟨vs, h2, h3, h4⟩ := valuesAt_ok ps fun q hq => h q (by simp [hq])
    refine ⟨r :: vs, by rw [valuesAt, h1, Res.ok_bind, h2, Res.ok_bind], by simp [h3], ?_⟩
    intro i q hq
    cases i with
    | zero => cases hq; exact ⟨r, rfl, h1⟩
    | succ i => exact h4 i q (by simpa using hq)

theorem compute_ok {T : Tables} {ss : List Spot} (hP : Proper T ss) (nearest : List Pt → Pt → Option Nat) (ps : List Pt) :
    ∃ D vs, Fits T ss D ∧ compute nearest T ss ps = .ok vs ∧ vs.length = ps.length ∧
      ∀ (i : Nat) p, ps[i]? = some p → ∃ r, vs[i]? = some r ∧ valueAt nearest D p = .ok r := by
  obtain ⟨ef, xs, h1, h2, h3⟩ := hP.data
  obtain ⟨vs, h4, h5, h6⟩ := valuesAt_ok (nearest := nearest) (D := ⟨ss, xs, T.faceEdges, T.edgeNodes, ef⟩) ps fun p _ =>
    let ⟨r, hr, _⟩ := valueAt_total hP h3 nearest p
    ⟨r, hr⟩
  refine ⟨_, vs, h3, ?_, h5, h6⟩
  unfold compute
  rw [if_neg (by rw [List.isEmpty_iff]; exact hP.samples_ne), h1, Res.ok_bind, if_neg (by rw [List.isEmpty_iff]; exact hP.nonempty), h2, Res.ok_bind, h4]

/-! ## Means -/

theorem mean_corner {x : Tri} {u : Spot} (h : u ∈ [x.a, x.b, x.c]) : x.Mean u.pos u.value := by
  simp only [List.mem_cons, List.not_mem_nil, or_false] at h
  rcases h with rfl | rfl | rfl
  · exact ⟨1, 0, 0, by norm_num, le_rfl, le_rfl, by norm_num, by ring, by ring, by ring⟩
  · exact ⟨0, 1, 0, le_rfl, by norm_num, le_rfl, by norm_num, by ring, by ring, by ring⟩
  · exact ⟨0, 0, 1, le_rfl, le_rfl, by norm_num, by norm_num, by ring, by ring, by ring⟩

theorem mean_segment {x : Tri} {u v : Spot} (hu : u ∈ [x.a, x.b, x.c]) (hv : v ∈ [x.a, x.b, x.c]) {p : Pt} {t : ℚ} (h0 : 0 ≤ t) (h1 : t ≤ 1)
    (hx : p.x = (1 - t) * u.pos.x + t * v.pos.x) (hy : p.y = (1 - t) * u.pos.y + t * v.pos.y) :
    x.Mean p (u.value + t * (v.value - u.value)) := by
  obtain ⟨a1, a2, a3, p1, p2, p3, p4, p5, p6, p7⟩ := mean_corner hu
  obtain ⟨b1, b2, b3, q1, q2, q3, q4, q5, q6, q7⟩ := mean_corner hv
  have ht : 0 ≤ 1 - t := by linarith
  refine ⟨(1 - t) * a1 + t * b1, (1 - t) * a2 + t * b2, (1 - t) * a3 + t * b3, by positivity, by positivity, by positivity, ?_, ?_, ?_, ?_⟩
  · linear_combination (1 - t) * p4 + t * q4
  · rw [hx]; linear_combination (1 - t) * p5 + t * q5
  · rw [hy]; linear_combination (1 - t) * p6 + t * q6
  · linear_combination (1 - t) * p7 + t * q7

/-- In a conforming triangulation the value does not depend on the triangle. -/
theorem mean_same {T : Tables} {ss : List Spot} (hP : Proper T ss) (hK : Conforming T ss) {f g : Nat} {x y : Tri} {p : Pt} {v w : ℚ}
    (hx : triAt T ss f = some x) (hy : triAt T ss g = some y) (hv : x.Mean p v) (hw : y.Mean p w) : v = w := by
  by_cases hfg : f = g
  · subst hfg
    rw [hx] at hy
    cases hy
    rw [mean_unique (hP.area_pos hx) hv, mean_unique (hP.area_pos hx) hw]
  · obtain ⟨a, b, ha, ha', hb, hb', t, h0, h1, h2, h3⟩ := hK f g x y p hfg hx hy ⟨v, hv⟩ ⟨w, hw⟩
    rw [mean_unique (hP.area_pos hx) hv, ← mean_unique (hP.area_pos hx) (mean_segment ha hb h0 h1 h2 h3),
      mean_unique (hP.area_pos hy) (mean_segment ha' hb' h0 h1 h2 h3), ← mean_unique (hP.area_pos hy) hw]

/-! ## Circles -/

/-- The plane through the corners of a triangle lifted to the paraboloid. -/
theorem plane_lifted {P : Nat → Pt} {t : Nat × Nat × Nat} (hA : 0 < area2 (P t.1) (P t.2.1) (P t.2.2)) {o : Pt}
    (h1 : dist2 o (P t.1) = dist2 o (P t.2.1)) (h2 : dist2 o (P t.1) = dist2 o (P t.2.2)) (q : Pt) :
    plane P (fun n => dist2 ⟨0, 0⟩ (P n)) t q = dist2 ⟨0, 0⟩ q - dist2 o q + dist2 o (P t.1) := by
  have hA' := hA.ne'
  have e : ∀ r : Pt, dist2 ⟨0, 0⟩ r = dist2 o r + (2 * o.x * r.x + 2 * o.y * r.y - o.x * o.x - o.y * o.y) := by intro r; unfold dist2; ring
  have hs : area2 (P t.2.1) (P t.2.2) q = area2 (P t.1) (P t.2.1) (P t.2.2) - area2 (P t.2.2) (P t.1) q - area2 (P t.1) (P t.2.1) q := by
    have := areas_sum (P t.1) (P t.2.1) (P t.2.2) q
    linarith
  have hqx : area2 (P t.2.1) (P t.2.2) q * (P t.1).x + area2 (P t.2.2) (P t.1) q * (P t.2.1).x + area2 (P t.1) (P t.2.1) q * (P t.2.2).x =
      q.x * area2 (P t.1) (P t.2.1) (P t.2.2) := by unfold area2; ring
  have hqy : area2 (P t.2.1) (P t.2.2) q * (P t.1).y + area2 (P t.2.2) (P t.1) q * (P t.2.1).y + area2 (P t.1) (P t.2.1) q * (P t.2.2).y =
      q.y * area2 (P t.1) (P t.2.1) (P t.2.2) := by unfold area2; ring
  have hsum := areas_sum (P t.1) (P t.2.1) (P t.2.2) q
  unfold plane
  simp only
  rw [div_eq_iff hA', e (P t.1), e (P t.2.1), e (P t.2.2), e q, ← h1, ← h2]
  linear_combination 2 * o.x * hqx + 2 * o.y * hqy + (dist2 o (P t.1) - o.x * o.x - o.y * o.y) * hsum

/-- The centre of the circle through three points that are not on a line. -/
theorem circle_centre {a b c : Pt} (hA : 0 < area2 a b c) : ∃ o, dist2 o a = dist2 o b ∧ dist2 o a = dist2 o c := by
  have hA' : (b.x - a.x) * (c.y - a.y) - (b.y - a.y) * (c.x - a.x) ≠ 0 := by
    have : area2 a b c = (b.x - a.x) * (c.y - a.y) - (b.y - a.y) * (c.x - a.x) := by unfold area2; ring
    rw [← this]; exact hA.ne'
  obtain ⟨D, hD⟩ : ∃ D, D = (b.x - a.x) * (c.y - a.y) - (b.y - a.y) * (c.x - a.x) := ⟨_, rfl⟩
  rw [← hD] at hA'
  obtain ⟨B, hB⟩ : ∃ B, B = (b.x - a.x) * (b.x - a.x) + (b.y - a.y) * (b.y - a.y) := ⟨_, rfl⟩
  obtain ⟨E, hE⟩ : ∃ E, E = (c.x - a.x) * (c.x - a.x) + (c.y - a.y) * (c.y - a.y) := ⟨_, rfl⟩
  obtain ⟨u, hu⟩ : ∃ u, u = ((c.y - a.y) * B - (b.y - a.y) * E) / (2 * D) := ⟨_, rfl⟩
  obtain ⟨v, hv⟩ : ∃ v, v = ((b.x - a.x) * E - (c.x - a.x) * B) / (2 * D) := ⟨_, rfl⟩
  have hu' : 2 * D * u = (c.y - a.y) * B - (b.y - a.y) * E := by rw [hu]; field_simp
  have hv' : 2 * D * v = (b.x - a.x) * E - (c.x - a.x) * B := by rw [hv]; field_simp
  have k1 : 2 * ((b.x - a.x) * u + (b.y - a.y) * v) = B := by
    have : D * (2 * ((b.x - a.x) * u + (b.y - a.y) * v)) = D * B := by
      linear_combination (b.x - a.x) * hu' + (b.y - a.y) * hv' - B * hD
    exact mul_left_cancel₀ hA' this
  have k2 : 2 * ((c.x - a.x) * u + (c.y - a.y) * v) = E := by
    have : D * (2 * ((c.x - a.x) * u + (c.y - a.y) * v)) = D * E := by
      linear_combination (c.x - a.x) * hu' + (c.y - a.y) * hv' - E * hD
    exact mul_left_cancel₀ hA' this
  refine ⟨⟨a.x + u, a.y + v⟩, ?_, ?_⟩
  · unfold dist2
    simp only
    linear_combination k1 + hB
  · unfold dist2
    simp only
    linear_combination k2 + hE

/-! ## The locations -/

theorem middles_ok {nodes : List (Option Pt)} : ∀ (es : List Edge), (∀ e ∈ es, e.1 ≠ missing → e.2 ≠ missing → e.1 < nodes.length ∧ e.2 < nodes.length) →
    ∃ ps, middles nodes es = .ok ps ∧ ps.length = es.length ∧ ∀ (i : Nat) e, es[i]? = some e → ∃ p, ps[i]? = some p ∧ middle nodes e = .ok p
  | [], _ => ⟨[], rfl, rfl, by simp⟩
  | e :: es, h => by
    obtain ⟨ps, h1, h2, h3⟩ := middles_ok es fun d hd => h d (by simp [hd])
    obtain ⟨p, hp⟩ : ∃ p, middle nodes e = .ok p := by
      unfold middle
      by_cases hm : e.1 ≠ missing ∧ e.2 ≠ missing
      · obtain ⟨k1, k2⟩ := h e (by simp) hm.1 hm.2
        rw [if_pos hm, vget_ok k1, Res.ok_bind, vget_ok k2, Res.ok_bind]
        exact ⟨_, rfl⟩
      · rw [if_neg hm]
        exact ⟨_, rfl⟩
    refine ⟨p :: ps, by rw [middles, hp, Res.ok_bind, h1, Res.ok_bind], by simp [h2], ?_⟩
    intro i d hd
    cases i with
    | zero => cases hd; exact ⟨p, rfl, hp⟩
    | succ i => exact h3 i d (by simpa using hd)

end Verif.TriInterp
