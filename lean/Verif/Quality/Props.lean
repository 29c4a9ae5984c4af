import Verif.Quality.FaceLemmas
import Verif.Mesh.UndoModel
/-!
# C55: orthogonality, smoothness and lengths; C56: obtuse triangles and short flow edges
-/
namespace Verif.Quality
open Verif.Mesh Verif.Faces
open Verif.Polygons (Pt area2 shoelace minArea)

/-! ## Example meshes -/

/-- Two triangles with acute angles and a common edge. -/
def acutePair : Mesh Pt where
  nodes := [some ⟨0, 0⟩, some ⟨4, 0⟩, some ⟨2, 3⟩, some ⟨6, 3⟩]
  edges := [(0, 1), (1, 2), (2, 0), (1, 3), (3, 2)]
  nodesEdges := []
  numEdges := []

/-- A square cut in two triangles by a diagonal. -/
def cutSquare : Mesh Pt where
  nodes := [some ⟨0, 0⟩, some ⟨2, 0⟩, some ⟨2, 2⟩, some ⟨0, 2⟩]
  edges := [(0, 1), (1, 2), (2, 3), (3, 0), (0, 2)]
  nodesEdges := []
  numEdges := []

/-- Two neighbouring rectangles of 10 by 10 and 40 by 10 micrometres. -/
def tinyFaces : Mesh Pt where
  nodes := [some ⟨0, 0⟩, some ⟨1/100000, 0⟩, some ⟨1/100000, 1/100000⟩, some ⟨0, 1/100000⟩, some ⟨5/100000, 0⟩, some ⟨5/100000, 1/100000⟩]
  edges := [(0, 1), (1, 2), (2, 3), (3, 0), (1, 4), (4, 5), (5, 2)]
  nodesEdges := []
  numEdges := []

/-- A triangle with an obtuse angle next to one without. -/
def flatTriangle : Mesh Pt where
  nodes := [some ⟨0, 0⟩, some ⟨4, 0⟩, some ⟨2, 1⟩, some ⟨2, -4⟩]
  edges := [(0, 1), (1, 2), (2, 0), (1, 3), (3, 0)]
  nodesEdges := []
  numEdges := []

/-- Any centre for faces that are no triangles. -/
def noCentre : List Pt → List Nat → Pt := fun _ _ => ⟨0, 0⟩

theorem borders_of_check {s : State} {f e : Nat} (h : (match s.facesEdges[f]? with | some es => es.contains e | none => false) = true) :
    Borders s f e := by
  cases h1 : s.facesEdges[f]? with
  | none => rw [h1] at h; simp at h
  | some es => rw [h1] at h; exact ⟨es, h1, by simpa using h⟩

/-! ## C55: orthogonality -/

/-- **C55.** The orthogonality of an edge between two faces is the absolute value of the cosine of the angle between the edge and the line of the
centres of the faces; it is missing exactly when the edge has no length or the centres are the same point.  An edge without two faces has the missing
value.  There is a value for every edge, and no access is out of range. -/
theorem orthogonality_exact (other : List Pt → List Nat → Pt) {m m1 : Mesh Pt} {s : State} (hn : m.nodes.length ≤ missing) (hb : inBounds m = true)
    (hrun : doAdministrationCartesian m = .ok (m1, s)) (hF : s.facesNodes.length ≤ missing) :
    ∃ l, orthogonality (tables other m1 s) = .ok l ∧ l.length = m1.edges.length ∧ ∀ e, e < m1.edges.length →
      (∀ f g, f ≠ g → Borders s f e → Borders s g e → ∃ p a b, m1.edges[e]? = some p ∧ seg m1.nodes p = some (a, b) ∧
        (a = b ∨ centreOf other m1 s f = centreOf other m1 s g → l[e]? = some none) ∧
        (a ≠ b → centreOf other m1 s f ≠ centreOf other m1 s g →
          ∃ v, l[e]? = some (some v) ∧ AbsCosine v a b (centreOf other m1 s f) (centreOf other m1 s g))) ∧
      ((∀ f g, Borders s f e → Borders s g e → f = g) → l[e]? = some none) := by
  have r := ready_of_run hn hb hrun hF
  obtain ⟨l, h1, h2, h3⟩ := fill_ok (f := edgeOrthogonality (tables other m1 s)) (k := m1.edges.length) (j := 0) (fun e he => by
    rw [Nat.zero_add]
    by_cases h : ∀ f g, Borders s f e → Borders s g e → f = g
    · exact ⟨_, edgeOrthogonality_missing r he h⟩
    · push Not at h
      obtain ⟨f, g, hf, hg, hne⟩ := h
      obtain ⟨_, _, _, _, _, _, _, h, _⟩ := edgeOrthogonality_two (other := other) r he hne hf hg
      exact ⟨_, h⟩)
  refine ⟨l, h1, h2, fun e he => ⟨fun f g hne hf hg => ?_, fun h => h3 e none he (by rw [Nat.zero_add]; exact edgeOrthogonality_missing r he h)⟩⟩
  obtain ⟨p, a, b, c, d, e1, e2, e3, e4⟩ := edgeOrthogonality_two (other := other) r he hne hf hg
  have hl := h3 e _ he (by rw [Nat.zero_add]; exact e3)
  refine ⟨p, a, b, e1, e2, fun h => ?_, fun hab hcd => ?_⟩
  · rw [hl, innerProduct_none]
    · rfl
    · rcases h with h | h
      · exact Or.inl h
      · right; rcases e4 with ⟨rfl, rfl⟩ | ⟨rfl, rfl⟩
        · exact h
        · exact h.symm
  · rcases e4 with ⟨rfl, rfl⟩ | ⟨rfl, rfl⟩
    · obtain ⟨v, i1, i2⟩ := innerProduct_some hab hcd
      exact ⟨|v|, by rw [hl, i1]; rfl, i2⟩
    · obtain ⟨v, i1, i2⟩ := innerProduct_some hab (Ne.symm hcd)
      exact ⟨|v|, by rw [hl, i1]; rfl, absCosine_swap i2⟩

/-- **C55.** The value is 0 exactly when the two lines are perpendicular, and 1 exactly when they are parallel. -/
theorem orthogonality_extremes {v : ℝ} {a b c d : Pt} (hab : a ≠ b) (hcd : c ≠ d) (h : AbsCosine v a b c d) :
    (v = 0 ↔ dot a b c d = 0) ∧ (v = 1 ↔ (b.x - a.x) * (d.y - c.y) = (b.y - a.y) * (d.x - c.x)) :=
  ⟨absCosine_zero hab hcd h, absCosine_one hab hcd h⟩

example : AbsCosine 0 ⟨0, 0⟩ ⟨2, 0⟩ ⟨1, -1⟩ ⟨1, 3⟩ := ⟨le_refl _, by norm_num, by norm_num [dot]⟩

/-- **C55.** An edge between two triangles without obtuse angles is orthogonal to the line of the centres, which are the circumcentres: its value is 0,
or missing when the four corners lie on one circle. -/
theorem acute_neighbours_orthogonal (other : List Pt → List Nat → Pt) {m m1 : Mesh Pt} {s : State} (hn : m.nodes.length ≤ missing)
    (hb : inBounds m = true) (hrun : doAdministrationCartesian m = .ok (m1, s)) (hF : s.facesNodes.length ≤ missing) {e f g : Nat}
    (he : e < m1.edges.length) (hne : f ≠ g) (hf : Borders s f e) (hg : Borders s g e) {p q r p' q' r' : Pt} (cf : corners m1 s f = [p, q, r])
    (cg : corners m1 s g = [p', q', r']) (vf : ∀ x ∈ corners m1 s f, x.isValid = true ∧ x.Finite)
    (vg : ∀ x ∈ corners m1 s g, x.isValid = true ∧ x.Finite) (of : ¬ ObtuseFace m1 s f) (og : ¬ ObtuseFace m1 s g) :
    ∃ l, orthogonality (tables other m1 s) = .ok l ∧
      (circumcentre p q r ≠ circumcentre p' q' r' → l[e]? = some (some 0)) ∧
      (circumcentre p q r = circumcentre p' q' r' → l[e]? = some none) := by
  have rd := ready_of_run hn hb hrun hF
  obtain ⟨l, h1, _, h3⟩ := orthogonality_exact other hn hb hrun hF
  refine ⟨l, h1, ?_⟩
  obtain ⟨x, a, b, e1, e2, e3, e4⟩ := (h3 e he).1 f g hne hf hg
  obtain ⟨A1, y, a1, b1, s1, s2, s3, s4, s5⟩ := side_corners rd hf cf
  obtain ⟨A2, z, a2, b2, u1, u2, u3, u4, u5⟩ := side_corners rd hg cg
  rw [e1] at s1 u1
  obtain rfl := Option.some.inj s1
  obtain rfl := Option.some.inj u1
  rw [e2] at s2 u2
  obtain ⟨rfl, rfl⟩ := Prod.mk.inj (Option.some.inj s2)
  obtain ⟨rfl, rfl⟩ := Prod.mk.inj (Option.some.inj u2)
  have h2 : s.numFaces[e]? = some 2 := by
    obtain ⟨_, _, _, _, _, _, h, _⟩ := two_faces rd he hne hf hg
    exact h
  have c1 : centreOf other m1 s f = circumcentre p q r := by
    rw [centreOf_triangle hf h2 cf]
    rw [cf] at vf
    exact acute_centre (vf p (by simp)).1 (vf q (by simp)).1 (vf r (by simp)).1 (vf p (by simp)).2 (vf q (by simp)).2 (vf r (by simp)).2 A1
      (not_obtuse_three cf of)
  have c2 : centreOf other m1 s g = circumcentre p' q' r' := by
    rw [centreOf_triangle hg h2 cg]
    rw [cg] at vg
    exact acute_centre (vg p' (by simp)).1 (vg q' (by simp)).1 (vg r' (by simp)).1 (vg p' (by simp)).2 (vg q' (by simp)).2 (vg r' (by simp)).2 A2
      (not_obtuse_three cg og)
  rw [c1, c2] at e3 e4
  refine ⟨fun hc => ?_, fun hc => e3 (Or.inr hc)⟩
  obtain ⟨v, v1, v2⟩ := e4 s3 hc
  have : v = 0 := (absCosine_zero s3 hc v2).2 (dot_of_gap (circumcentre_mem A1.ne' s4 s5) (circumcentre_mem A2.ne' u4 u5))
  rw [v1, this]

/-- The circumcentre is at the same distance of the three corners. -/
theorem circumcentre_equidistant {p q r : Pt} (h : area2 p q r ≠ 0) :
    gap (circumcentre p q r) p = gap (circumcentre p q r) q ∧ gap (circumcentre p q r) q = gap (circumcentre p q r) r := circumcentre_gap h

example : area2 ⟨0, 0⟩ ⟨4, 0⟩ ⟨2, 3⟩ ≠ 0 := by unfold area2; norm_num

theorem finite_small {p : Pt} (h : |p.x| ≤ 1000 ∧ |p.y| ≤ 1000) : p.Finite := by
  have hd : (1000 : ℚ) < Polygons.dblMax := by decide +kernel
  obtain ⟨h1, h2⟩ := h
  rw [abs_le] at h1 h2
  exact ⟨by linarith [h1.1], by linarith [h1.2], by linarith [h2.1], by linarith [h2.2]⟩

example : doAdministrationCartesian acutePair = .ok ((runOf acutePair).1, (runOf acutePair).2) ∧ (runOf acutePair).2.facesNodes.length ≤ missing ∧
    Borders (runOf acutePair).2 0 1 ∧ Borders (runOf acutePair).2 1 1 ∧
    corners (runOf acutePair).1 (runOf acutePair).2 0 = [⟨0, 0⟩, ⟨4, 0⟩, ⟨2, 3⟩] ∧
    corners (runOf acutePair).1 (runOf acutePair).2 1 = [⟨4, 0⟩, ⟨6, 3⟩, ⟨2, 3⟩] ∧
    (∀ f < 2, ∀ x ∈ corners (runOf acutePair).1 (runOf acutePair).2 f, x.isValid = true ∧ x.Finite) ∧
    (∀ f < 2, ¬ ObtuseFace (runOf acutePair).1 (runOf acutePair).2 f) ∧
    circumcentre ⟨0, 0⟩ ⟨4, 0⟩ ⟨2, 3⟩ ≠ circumcentre ⟨4, 0⟩ ⟨6, 3⟩ ⟨2, 3⟩ := by
  have c0 : corners (runOf acutePair).1 (runOf acutePair).2 0 = [⟨0, 0⟩, ⟨4, 0⟩, ⟨2, 3⟩] := by decide +kernel
  have c1 : corners (runOf acutePair).1 (runOf acutePair).2 1 = [⟨4, 0⟩, ⟨6, 3⟩, ⟨2, 3⟩] := by decide +kernel
  refine ⟨runOf_eq (by decide) (by decide), by decide +kernel, borders_of_check (by decide +kernel), borders_of_check (by decide +kernel), c0, c1,
    ?_, ?_, by decide +kernel⟩
  · intro f hf x hx
    have : ∀ f < 2, ∀ x ∈ corners (runOf acutePair).1 (runOf acutePair).2 f, x.isValid = true ∧ (|x.x| ≤ 1000 ∧ |x.y| ≤ 1000) := by decide +kernel
    exact ⟨(this f hf x hx).1, finite_small (this f hf x hx).2⟩
  · intro f hf
    rintro ⟨p, q, r, h, ho⟩
    have hf2 : f = 0 ∨ f = 1 := by omega
    rcases hf2 with rfl | rfl
    · rw [c0] at h
      simp only [List.cons.injEq, and_true] at h
      obtain ⟨rfl, rfl, rfl⟩ := h
      revert ho
      unfold Obtuse dotAt
      norm_num
    · rw [c1] at h
      simp only [List.cons.injEq, and_true] at h
      obtain ⟨rfl, rfl, rfl⟩ := h
      revert ho
      unfold Obtuse dotAt
      norm_num

/-- The triangles of a square cut by a diagonal have the same circumcentre. -/
example : circumcentre ⟨0, 0⟩ ⟨2, 0⟩ ⟨2, 2⟩ = circumcentre ⟨0, 0⟩ ⟨2, 2⟩ ⟨0, 2⟩ := by decide +kernel

/-- **C55.** The centre of a triangle lies in the triangle or on its boundary; it is the circumcentre when no angle is obtuse.  (The hypothesis about
the sides the circumcentre lies beyond says that the parallelogram of the side and the line from the mean of the corners to the circumcentre has at
least an area of a hundred thousandth of the largest difference of coordinates; `tiny_centre_outside` shows what happens otherwise.) -/
theorem triangle_centre_inside_partial {p q r : Pt} (vp : p.isValid = true) (vq : q.isValid = true) (vr : r.isValid = true) (fp : p.Finite)
    (fq : q.Finite) (fr : r.Finite) (h : 0 < area2 p q r) (vc : (circumcentre p q r).isValid = true) (fc : (circumcentre p q r).Finite)
    (hw : ∀ s ∈ [(p, q), (q, r), (r, p)], area2 s.1 s.2 (circumcentre p q r) < 0 → Cross.Apart (mean p q r) (circumcentre p q r) s.1 s.2) :
    InTriangle p q r (triangleCentre p q r) ∧ (¬ Obtuse p q r → triangleCentre p q r = circumcentre p q r) := by
  refine ⟨?_, fun ho => acute_centre vp vq vr fp fq fr h ho⟩
  by_cases ho : Obtuse p q r
  · obtain ⟨s1, s2, s3⟩ := circumcentre_sides h
    obtain ⟨o1, o2, o3, g1, g2, g3⟩ := one_obtuse h
    obtain ⟨k1, k2⟩ := circumcentre_gap h.ne'
    obtain ⟨t1, t2⟩ := area2_turn p q r
    obtain ⟨n1, n2⟩ := mean_turn p q r
    have hout : Polygons.inPolygonNodes [p, q, r, p] (circumcentre p q r) = false := by
      apply notInNodes_of_obtuse vp vq vr vc fc h
      · rw [s1.2, s2.2, s3.2]
        rcases ho with h' | h' | h'
        · right; left; exact h'
        · right; right; exact h'
        · left; exact h'
      · have z : ∀ x d : ℚ, (0 < x ↔ 0 < d) ∧ (x < 0 ↔ d < 0) → d ≠ 0 → x ≠ 0 := by
          rintro x d ⟨a, b⟩ hd rfl
          rcases lt_or_gt_of_ne hd with h' | h'
          · exact absurd (b.2 h') (lt_irrefl _)
          · exact absurd (a.2 h') (lt_irrefl _)
        refine ⟨z _ _ s1 ?_, z _ _ s2 ?_, z _ _ s3 ?_⟩ <;> intro h0 <;> rcases ho with h' | h' | h' <;> linarith
    have hcross : ∃ s ∈ [(p, q), (q, r), (r, p)], Cross.crossing (mean p q r) (circumcentre p q r) s.1 s.2 = true := by
      rcases ho with h' | h' | h'
      · refine ⟨(q, r), by simp, ?_⟩
        have hb := s2.2.2 h'
        have := hw (q, r) (by simp) hb
        rw [← n1] at this ⊢
        exact beyond_crosses (by rw [t1]; exact h) k2 hb (by linarith) (by rw [dotAt_comm]; linarith) this
      · refine ⟨(r, p), by simp, ?_⟩
        have hb := s3.2.2 h'
        have := hw (r, p) (by simp) hb
        rw [← n2] at this ⊢
        exact beyond_crosses (by rw [t2]; exact h) (k1.trans k2).symm hb (by linarith) (by rw [dotAt_comm]; linarith) this
      · refine ⟨(p, q), by simp, ?_⟩
        have hb := s1.2.2 h'
        exact beyond_crosses h k1 hb (by linarith) (by rw [dotAt_comm]; linarith) (hw (p, q) (by simp) hb)
    obtain ⟨s, hs, t, ht0, ht1, hx, hy⟩ := pullBack_mem hcross
    unfold triangleCentre
    simp only []
    rw [hout, if_neg (by decide)]
    exact onSide_inTriangle hs ht0 ht1 hx hy
  · rw [acute_centre vp vq vr fp fq fr h ho]
    obtain ⟨s1, s2, s3⟩ := circumcentre_sides h
    unfold Obtuse at ho
    push Not at ho
    refine inTriangle_of_area h ?_ ?_ ?_
    · by_contra hc; exact absurd (s1.2.1 (not_le.1 hc)) (not_lt.2 ho.2.2)
    · by_contra hc; exact absurd (s2.2.1 (not_le.1 hc)) (not_lt.2 ho.1)
    · by_contra hc; exact absurd (s3.2.1 (not_le.1 hc)) (not_lt.2 ho.2.1)

/-- An obtuse triangle of 4 by 1: the circumcentre lies beyond the long side, the centre is the middle of that side. -/
example : Obtuse ⟨0, 0⟩ ⟨4, 0⟩ ⟨2, 1⟩ ∧ 0 < area2 ⟨0, 0⟩ ⟨4, 0⟩ ⟨2, 1⟩ ∧ circumcentre ⟨0, 0⟩ ⟨4, 0⟩ ⟨2, 1⟩ = ⟨2, -3/2⟩ ∧
    (∀ s ∈ [((⟨0, 0⟩ : Pt), (⟨4, 0⟩ : Pt)), (⟨4, 0⟩, ⟨2, 1⟩), (⟨2, 1⟩, ⟨0, 0⟩)], area2 s.1 s.2 (circumcentre ⟨0, 0⟩ ⟨4, 0⟩ ⟨2, 1⟩) < 0 →
      Cross.Apart (mean ⟨0, 0⟩ ⟨4, 0⟩ ⟨2, 1⟩) (circumcentre ⟨0, 0⟩ ⟨4, 0⟩ ⟨2, 1⟩) s.1 s.2) ∧ triangleCentre ⟨0, 0⟩ ⟨4, 0⟩ ⟨2, 1⟩ = ⟨2, 0⟩ := by
  refine ⟨?_, ?_, by decide +kernel, ?_, by decide +kernel⟩
  · unfold Obtuse dotAt; norm_num
  · unfold area2; norm_num
  · unfold Cross.Apart
    decide +kernel

/-- **C55 violated.** For the same triangle a million times smaller the crossing with the side is not found: the centre is outside. -/
theorem tiny_centre_outside : ∃ p q r : Pt, p.isValid = true ∧ q.isValid = true ∧ r.isValid = true ∧ 0 < area2 p q r ∧
    ¬ InTriangle p q r (triangleCentre p q r) := by
  refine ⟨⟨0, 0⟩, ⟨4 / 1000000, 0⟩, ⟨2 / 1000000, 1 / 1000000⟩, by decide +kernel, by decide +kernel, by decide +kernel, ?_, ?_⟩
  · unfold area2; norm_num
  · have : triangleCentre ⟨0, 0⟩ ⟨4 / 1000000, 0⟩ ⟨2 / 1000000, 1 / 1000000⟩ = ⟨2 / 1000000, -(3 / 2000000)⟩ := by decide +kernel
    rw [this]
    rintro ⟨u, v, w, _, _, hw, _, _, hy⟩
    simp only [mul_zero, zero_add] at hy
    linarith

/-! ## C55: smoothness -/

/-- **C55.** The smoothness of an edge between two faces is the ratio of the larger area to the smaller one, where areas below a hundred millionth count as
that: it is at least 1, is never missing, and is 1 exactly for equal areas.  An edge without two faces has the missing value. -/
theorem smoothness_exact (other : List Pt → List Nat → Pt) {m m1 : Mesh Pt} {s : State} (hn : m.nodes.length ≤ missing) (hb : inBounds m = true)
    (hrun : doAdministrationCartesian m = .ok (m1, s)) (hF : s.facesNodes.length ≤ missing) :
    ∃ l, smoothness (tables other m1 s) = .ok l ∧ l.length = m1.edges.length ∧ ∀ e, e < m1.edges.length →
      (∀ f g, f ≠ g → Borders s f e → Borders s g e → ∃ v, l[e]? = some (some v) ∧
        v = max (areaOf m1 s f) (areaOf m1 s g) / min (areaOf m1 s f) (areaOf m1 s g) ∧ 1 ≤ v ∧ (v = 1 ↔ areaOf m1 s f = areaOf m1 s g)) ∧
      ((∀ f g, Borders s f e → Borders s g e → f = g) → l[e]? = some none) := by
  have r := ready_of_run hn hb hrun hF
  obtain ⟨l, h1, h2, h3⟩ := fill_ok (f := edgeSmoothness (tables other m1 s)) (k := m1.edges.length) (j := 0) (fun e he => by
    rw [Nat.zero_add]
    by_cases h : ∀ f g, Borders s f e → Borders s g e → f = g
    · exact ⟨_, edgeSmoothness_missing r he h⟩
    · push Not at h
      obtain ⟨f, g, hf, hg, hne⟩ := h
      exact ⟨_, edgeSmoothness_two r he hne hf hg⟩)
  refine ⟨l, h1, h2, fun e he => ⟨fun f g hne hf hg => ?_, fun h => h3 e none he (by rw [Nat.zero_add]; exact edgeSmoothness_missing r he h)⟩⟩
  refine ⟨_, h3 e _ he (by rw [Nat.zero_add]; exact edgeSmoothness_two r he hne hf hg), rfl, ?_, ?_⟩
  all_goals
    have m0 : (0 : ℚ) < minArea := by unfold minArea; norm_num
    have a0 : 0 < areaOf m1 s f := lt_of_lt_of_le m0 (le_max_right _ _)
    have b0 : 0 < areaOf m1 s g := lt_of_lt_of_le m0 (le_max_right _ _)
    have hm : 0 < min (areaOf m1 s f) (areaOf m1 s g) := lt_min a0 b0
  · rw [le_div_iff₀ hm, one_mul]
    exact min_le_max
  · rw [div_eq_one_iff_eq hm.ne']
    constructor
    · intro h
      exact le_antisymm ((le_max_left _ _).trans (h.le.trans (min_le_right _ _))) ((le_max_right _ _).trans (h.le.trans (min_le_left _ _)))
    · intro h; rw [h]; simp

example : smoothness (tables noCentre (runOf small).1 (runOf small).2) = .ok [none, some 2, none, none, some 1, none, none, none] := by decide +kernel

/-- **C55 violated.** For faces with areas below a hundred millionth the smoothness says nothing about them: here one face is four times the other, and the
value is 1. -/
theorem tiny_faces_smooth : ∃ (m m1 : Mesh Pt) (s : State), doAdministrationCartesian m = .ok (m1, s) ∧ Borders s 0 1 ∧ Borders s 1 1 ∧
    4 * shoelace (corners m1 s 0) = shoelace (corners m1 s 1) ∧ ∃ l, smoothness (tables noCentre m1 s) = .ok l ∧ l[1]? = some (some 1) := by
  refine ⟨tinyFaces, (runOf tinyFaces).1, (runOf tinyFaces).2, runOf_eq (by decide) (by decide), borders_of_check (by decide +kernel),
    borders_of_check (by decide +kernel), by decide +kernel, [none, some 1, none, none, none, none, none], by decide +kernel, rfl⟩

/-! ## C55: lengths -/

/-- **C55.** The length of an edge that joins two nodes is their distance; the entry of a deleted edge is what was there before. -/
theorem edge_lengths_exact (other : List Pt → List Nat → Pt) {m m1 : Mesh Pt} {s : State} (hn : m.nodes.length ≤ missing) (hb : inBounds m = true)
    (hrun : doAdministrationCartesian m = .ok (m1, s)) (old : List (Option ℝ)) :
    ∃ l, edgeLengths (tables other m1 s) old = .ok l ∧ l.length = m1.edges.length ∧ ∀ (e : Nat) p, m1.edges[e]? = some p →
      (∀ a b, seg m1.nodes p = some (a, b) → ∃ v : ℝ, l[e]? = some (some v) ∧ 0 ≤ v ∧ v ^ 2 = (gap a b : ℝ)) ∧
      (seg m1.nodes p = none → l[e]? = some (old[e]?.join)) := by
  obtain ⟨_, hall⟩ := run_edges hn hb hrun
  obtain ⟨l, h1, h2, h3⟩ := fill_ok (f := edgeLength (tables other m1 s) old) (k := m1.edges.length) (j := 0) (fun e he => by
    rw [Nat.zero_add]
    obtain ⟨p, hp, ⟨a, b, _, ha, hb', n1, n2⟩ | rfl⟩ := hall e he
    · exact ⟨_, edgeLength_eq hp ha hb' n1 n2⟩
    · exact ⟨_, edgeLength_deleted hp⟩)
  refine ⟨l, h1, h2, fun e p hp => ?_⟩
  have he : e < m1.edges.length := (List.getElem?_eq_some_iff.1 hp).1
  obtain ⟨p', hp', hcase⟩ := hall e he
  rw [hp] at hp'
  obtain rfl := Option.some.inj hp'
  rcases hcase with ⟨a, b, hs, ha, hb', n1, n2⟩ | rfl
  · refine ⟨fun a' b' h => ?_, fun h => by rw [hs] at h; simp at h⟩
    rw [hs] at h
    obtain ⟨rfl, rfl⟩ := Prod.mk.inj (Option.some.inj h)
    refine ⟨_, h3 e _ he (by rw [Nat.zero_add]; exact edgeLength_eq hp ha hb' n1 n2), Real.sqrt_nonneg _, Real.sq_sqrt ?_⟩
    exact_mod_cast gap_nonneg a b
  · have hno : seg m1.nodes noEdge = none := by
      have hl : m1.nodes.length ≤ missing := by
        obtain ⟨m0, m1', s', h0, h1, _, _, h2, _⟩ := cartesian_run m hn hb
        rw [hrun] at h2
        obtain ⟨rfl, rfl⟩ := Prod.mk.inj (Res.ok.inj h2)
        obtain ⟨m0', g1, g2⟩ := setUnconnectedInvalid_ok hn hb
        rw [h0] at g1
        obtain rfl := Res.ok.inj g1
        rw [h1, g2.1, connectedNodes_length]
        exact hn
      have : m1.nodes[missing]? = none := by simp; omega
      simp [seg, noEdge, this]
    exact ⟨fun a b h => by rw [hno] at h; simp at h, fun _ => h3 e _ he (by rw [Nat.zero_add]; exact edgeLength_deleted hp)⟩

/-- **C55 violated.** A deleted edge keeps the length it had: the lengths before and after the deletion agree there. -/
theorem deleted_edge_keeps_length : ∃ (m m1 : Mesh Pt) (s : State), doAdministrationCartesian m = .ok (m1, s) ∧ m1.edges[0]? = some noEdge ∧
    ∀ old : List (Option ℝ), old[0]? = some (some 2) → ∃ l, edgeLengths (tables noCentre m1 s) old = .ok l ∧ l[0]? = some (some 2) := by
  have hrun := runOf_eq (m := { small with edges := small.edges.set 0 noEdge }) (by decide) (by decide)
  refine ⟨_, _, _, hrun, by decide +kernel, fun old ho => ?_⟩
  obtain ⟨l, h1, _, h3⟩ := edge_lengths_exact noCentre (by decide) (by decide) hrun old
  refine ⟨l, h1, ?_⟩
  rw [(h3 0 noEdge (by decide +kernel)).2 (by decide +kernel), ho]
  rfl

/-! ## C55: the interface -/

/-- **C55.** `get_orthogonality` writes all values when the caller states the number of edges, and reports an error otherwise; `get_property` accepts larger
arrays too; the dimension reported is the number of values. -/
theorem api_orthogonality {t : Tables} {l : List (Option ℝ)} (ho : orthogonality t = .ok l) (h0 : t.nodes.length ≠ 0) (n : Nat) (old : List (Option ℝ)) :
    (n = l.length → apiOrthogonality n t = .ok l) ∧ (n ≠ l.length → apiOrthogonality n t = .throw) ∧
    (l.length ≤ n → apiProperty 0 n t old = .ok l) ∧ (n < l.length → apiProperty 0 n t old = .throw) ∧
    apiPropertyDimension 0 t old = .ok (some l.length) := by
  refine ⟨fun h => ?_, fun h => ?_, fun h => ?_, fun h => ?_, ?_⟩
  · unfold apiOrthogonality
    rw [if_neg h0, ho, Res.ok_bind, if_neg (by simpa using h), h, fill_vget l (le_refl _), List.take_length]
  · unfold apiOrthogonality
    rw [if_neg h0, ho, Res.ok_bind, if_pos h]
  · unfold apiProperty
    rw [if_neg h0, if_pos rfl, ho, Res.ok_bind, if_neg (by omega)]
  · unfold apiProperty
    rw [if_neg h0, if_pos rfl, ho, Res.ok_bind, if_pos h]
  · unfold apiPropertyDimension
    rw [if_neg h0, if_pos rfl, ho]; rfl

/-- **C55.** The same for the lengths of the edges; another number of a property is an error. -/
theorem api_lengths {t : Tables} {l old : List (Option ℝ)} (ho : edgeLengths t old = .ok l) (h0 : t.nodes.length ≠ 0) (n : Nat) :
    (l.length ≤ n → apiProperty 1 n t old = .ok l) ∧ (n < l.length → apiProperty 1 n t old = .throw) ∧
    apiPropertyDimension 1 t old = .ok (some l.length) ∧ ∀ k, 2 ≤ k → apiProperty k n t old = .throw ∧ apiPropertyDimension k t old = .throw := by
  refine ⟨fun h => ?_, fun h => ?_, ?_, fun k hk => ⟨?_, ?_⟩⟩
  · unfold apiProperty
    rw [if_neg h0, if_neg (by decide), if_pos rfl, ho, Res.ok_bind, if_neg (by omega)]
  · unfold apiProperty
    rw [if_neg h0, if_neg (by decide), if_pos rfl, ho, Res.ok_bind, if_pos h]
  · unfold apiPropertyDimension
    rw [if_neg h0, if_neg (by decide), if_pos rfl, ho]; rfl
  · unfold apiProperty
    rw [if_neg h0, if_neg (by omega), if_neg (by omega)]
  · unfold apiPropertyDimension
    rw [if_neg h0, if_neg (by omega), if_neg (by omega)]

/-- **C55 violated.** `get_smoothness` does not check the number the caller states: for more than the number of edges it reads beyond the end of the values. -/
theorem api_smoothness {t : Tables} {l : List (Option ℚ)} (ho : smoothness t = .ok l) (h0 : t.nodes.length ≠ 0) (n : Nat) :
    (n ≤ l.length → apiSmoothness n t = .ok (l.take n)) ∧ (l.length < n → apiSmoothness n t = .ub) := by
  refine ⟨fun h => ?_, fun h => ?_⟩
  · unfold apiSmoothness
    rw [if_neg h0, ho, Res.ok_bind, fill_vget l h]
  · unfold apiSmoothness
    rw [if_neg h0, ho, Res.ok_bind]
    refine fill_ub l.length h (fun i hi => ⟨l[i], ?_⟩) ?_
    · rw [Nat.zero_add]; exact vget_eq_ok.2 (List.getElem?_eq_getElem hi)
    · rw [Nat.zero_add]
      unfold vget
      simp

example : (smoothness (tables noCentre (runOf small).1 (runOf small).2) = .ok [none, some 2, none, none, some 1, none, none, none]) ∧
    (tables noCentre (runOf small).1 (runOf small).2).nodes.length ≠ 0 := ⟨by decide +kernel, by decide +kernel⟩

/-- **C55 violated.** After an edge is inserted through the interface the tables of faces do not have an entry for it, and both calls read beyond the end. -/
theorem inserted_edge_ub (other : List Pt → List Nat → Pt) {m m1 m2 : Mesh Pt} {s : State} (hn : m.nodes.length ≤ missing) (hb : inBounds m = true)
    (hrun : doAdministrationCartesian m = .ok (m1, s)) (hF : s.facesNodes.length ≤ missing) {x y : Nat} {as : List (Act Pt)}
    (hc : connectNodesU m1 x y = .ok (as, m2)) (hnew : as ≠ []) :
    orthogonality { tables other m1 s with edges := m2.edges } = .ub ∧ smoothness { tables other m1 s with edges := m2.edges } = .ub := by
  have r := ready_of_run hn hb hrun hF
  have hm2 : m2.edges = m1.edges ++ [(x, y)] := by
    unfold connectNodesU at hc
    obtain ⟨f, _, h⟩ := Res.bind_eq_ok.1 hc
    split at h
    · obtain ⟨rfl, _⟩ := Prod.mk.inj (Res.ok.inj h)
      exact absurd rfl hnew
    · obtain ⟨_, rfl⟩ := Prod.mk.inj (Res.ok.inj h)
      rfl
  have hlast : vget m2.edges m1.edges.length = .ok (x, y) := vget_eq_ok.2 (by rw [hm2]; simp)
  have hface : vget s.edgesFaces m1.edges.length = (.ub : Res (Nat × Nat)) := by
    unfold vget
    rw [List.getElem?_eq_none (by rw [r.consistent.edgesFaces])]
  have hsame : ∀ e, e < m1.edges.length → vget m2.edges e = vget m1.edges e := by
    intro e he
    unfold vget
    rw [hm2, List.getElem?_append_left he]
  have hlt : m1.edges.length < m2.edges.length := by rw [hm2]; simp
  constructor
  · refine fill_ub m1.edges.length hlt (fun e he => ?_) ?_
    · rw [Nat.zero_add]
      have : edgeOrthogonality { tables other m1 s with edges := m2.edges } e = edgeOrthogonality (tables other m1 s) e := by
        unfold edgeOrthogonality
        simp only [hsame e he]
        rfl
      rw [this]
      by_cases h : ∀ f g, Borders s f e → Borders s g e → f = g
      · exact ⟨_, edgeOrthogonality_missing r he h⟩
      · push Not at h
        obtain ⟨f, g, hf, hg, hne⟩ := h
        obtain ⟨_, _, _, _, _, _, _, h, _⟩ := edgeOrthogonality_two (other := other) r he hne hf hg
        exact ⟨_, h⟩
    · rw [Nat.zero_add]
      unfold edgeOrthogonality
      simp only [hlast]
      rw [Res.ok_bind]
      show (vget s.edgesFaces m1.edges.length >>= _) = _
      rw [hface]; rfl
  · refine fill_ub m1.edges.length hlt (fun e he => ?_) ?_
    · rw [Nat.zero_add]
      have : edgeSmoothness { tables other m1 s with edges := m2.edges } e = edgeSmoothness (tables other m1 s) e := by
        unfold edgeSmoothness
        simp only [hsame e he]
        rfl
      rw [this]
      by_cases h : ∀ f g, Borders s f e → Borders s g e → f = g
      · exact ⟨_, edgeSmoothness_missing r he h⟩
      · push Not at h
        obtain ⟨f, g, hf, hg, hne⟩ := h
        exact ⟨_, edgeSmoothness_two r he hne hf hg⟩
    · rw [Nat.zero_add]
      unfold edgeSmoothness
      simp only [hlast]
      rw [Res.ok_bind]
      show (vget s.edgesFaces m1.edges.length >>= _) = _
      rw [hface]; rfl

example : ∃ as m2, connectNodesU (runOf small).1 1 3 = .ok (as, m2) ∧ as ≠ [] := by
  refine ⟨[.addEdge (runOf small).1.edges.length (1, 3)], { (runOf small).1 with edges := (runOf small).1.edges ++ [(1, 3)] }, ?_, by simp⟩
  unfold connectNodesU
  have h : findEdge (runOf small).1 1 3 = .ok missing := by decide +kernel
  rw [h, Res.ok_bind, if_neg (by decide)]

/-! ## C56 -/

/-- **C56.** The points returned are the centres of mass of exactly the triangles with an obtuse angle, each once and in the order of the faces; the centre of
mass is the centroid when the area is at least a hundred millionth. -/
theorem obtuse_exact (other : List Pt → List Nat → Pt) {m m1 : Mesh Pt} {s : State} (hn : m.nodes.length ≤ missing) (hb : inBounds m = true)
    (hrun : doAdministrationCartesian m = .ok (m1, s)) (hF : s.facesNodes.length ≤ missing) :
    ∃ fs : List Nat, obtuseTriangles (tables other m1 s) = .ok (fs.map (massOf m1 s)) ∧ fs.Pairwise (· < ·) ∧
      (∀ f, f ∈ fs ↔ f < s.facesNodes.length ∧ ObtuseFace m1 s f) ∧
      ∀ f ∈ fs, minArea ≤ shoelace (corners m1 s f) → massOf m1 s f = Polygons.centroid (corners m1 s f) := by
  classical
  have r := ready_of_run hn hb hrun hF
  have h := collect (step := obtuseStep (tables other m1 s)) (sel := obtuseSel m1 s) (n := s.facesNodes.length) (fun f l hf => obtuseStep_eq r l hf)
  refine ⟨(List.range s.facesNodes.length).filter (fun f => decide (ObtuseFace m1 s f)), ?_, ?_, ?_, ?_⟩
  · show forRange 0 s.facesNodes.length _ [] = _
    rw [h]
    congr 1
    generalize List.range s.facesNodes.length = l
    induction l with
    | nil => rfl
    | cons f l ih =>
      by_cases ho : ObtuseFace m1 s f
      · rw [List.filterMap_cons_some (b := massOf m1 s f) (by unfold obtuseSel; rw [if_pos ho]), ih, List.filter_cons, if_pos (by simpa using ho)]
        rfl
      · rw [List.filterMap_cons_none (by unfold obtuseSel; rw [if_neg ho]), ih, List.filter_cons, if_neg (by simpa using ho)]
  · exact List.Pairwise.filter _ List.pairwise_lt_range
  · intro f; simp
  · intro f hf
    have hlt : f < s.facesEdges.length := by
      rw [← r.consistent.lengths]
      simpa using (List.mem_filter.1 hf).1
    exact (areas_get (other := other) r hlt).2.2.2.1

/-- The obtuse triangle of 4 by 1 is found, with its centroid. -/
example : obtuseTriangles (tables noCentre (runOf flatTriangle).1 (runOf flatTriangle).2) = .ok [⟨2, 1 / 3⟩] := by decide +kernel

/-- **C56.** The edges found are exactly those between two faces whose centres are less than the threshold times the mean of the roots of the areas apart, each
once and in ascending order; the point returned for each is the middle between the centres. -/
theorem small_flow_exact (other : List Pt → List Nat → Pt) {m m1 : Mesh Pt} {s : State} (hn : m.nodes.length ≤ missing) (hb : inBounds m = true)
    (hrun : doAdministrationCartesian m = .ok (m1, s)) (hF : s.facesNodes.length ≤ missing) (threshold : ℚ) :
    ∃ (es : List Nat) (ps : List Pt), smallFlowEdges (tables other m1 s) threshold = .ok es ∧ es.Pairwise (· < ·) ∧
      (∀ e, e ∈ es ↔ e < m1.edges.length ∧ ShortFlow other m1 s threshold e) ∧ flowEdgesCenters (tables other m1 s) es = .ok ps ∧
      List.Forall₂ (fun e p => ∃ f g, f ≠ g ∧ Borders s f e ∧ Borders s g e ∧
        p.x = ((centreOf other m1 s f).x + (centreOf other m1 s g).x) / 2 ∧ p.y = ((centreOf other m1 s f).y + (centreOf other m1 s g).y) / 2) es ps := by
  classical
  have r := ready_of_run hn hb hrun hF
  have h := collect (step := flowStep (tables other m1 s) threshold) (sel := flowSel other m1 s threshold) (n := m1.edges.length)
    (fun e l he => flowStep_eq r threshold l he)
  have hmem : ∀ e, e ∈ (List.range m1.edges.length).filter (fun e => decide (ShortFlow other m1 s threshold e)) ↔
      e < m1.edges.length ∧ ShortFlow other m1 s threshold e := by intro e; simp
  obtain ⟨ps, p1, p2⟩ := flowEdgesCenters_eq (other := other) r ((List.range m1.edges.length).filter (fun e => decide (ShortFlow other m1 s threshold e)))
    (fun e he => by
      obtain ⟨h1, f, g, hne, hf, hg, _⟩ := (hmem e).1 he
      exact ⟨h1, f, g, hne, hf, hg⟩)
  refine ⟨_, ps, ?_, List.Pairwise.filter _ List.pairwise_lt_range, hmem, p1, p2⟩
  show forRange 0 m1.edges.length _ [] = _
  rw [h]
  congr 1
  generalize List.range m1.edges.length = l
  induction l with
  | nil => rfl
  | cons f l ih =>
    by_cases ho : ShortFlow other m1 s threshold f
    · rw [List.filterMap_cons_some (b := f) (by unfold flowSel; rw [if_pos ho]), ih, List.filter_cons, if_pos (by simpa using ho)]
    · rw [List.filterMap_cons_none (by unfold flowSel; rw [if_neg ho]), ih, List.filter_cons, if_neg (by simpa using ho)]

/-- The diagonal of a square is such an edge for every positive threshold. -/
example : ShortFlow noCentre (runOf cutSquare).1 (runOf cutSquare).2 (1 / 10) 4 := by
  refine ⟨0, 1, by decide, borders_of_check (by decide +kernel), borders_of_check (by decide +kernel), ?_⟩
  have h : gap (centreOf noCentre (runOf cutSquare).1 (runOf cutSquare).2 0) (centreOf noCentre (runOf cutSquare).1 (runOf cutSquare).2 1) = 0 := by
    decide +kernel
  have a0 : areaOf (runOf cutSquare).1 (runOf cutSquare).2 0 = 2 := by decide +kernel
  have a1 : areaOf (runOf cutSquare).1 (runOf cutSquare).2 1 = 2 := by decide +kernel
  rw [h, a0, a1]
  have : (0 : ℝ) < √2 := Real.sqrt_pos.2 (by norm_num)
  norm_num

end Verif.Quality
