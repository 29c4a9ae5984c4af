import Verif.Polygons.ContainsLemmas
import Mathlib.Tactic.NormNum
/-!
# Property C23: point-in-polygon answers are well defined
-/
namespace Verif.Polygons

/-! ## One ring -/

theorem wind_true_iff {nodes : List Pt} {p : Pt} (hd : ∀ s ∈ sides nodes, s.1 ≠ s.2) :
    windLoop p nodes 0 = true ↔ (∃ s ∈ sides nodes, OnSegment s.1 s.2 p) ∨
      ((sides nodes).map fun s => crossing s.1 s.2 p).sum ≠ 0 := by
  rw [windLoop_eq, Bool.or_eq_true, List.any_eq_true, decide_eq_true_eq, Int.zero_add]
  constructor
  · rintro (⟨s, hs, h⟩ | h)
    · exact .inl ⟨s, hs, (onSegment_iff (hd s hs)).1 h⟩
    · exact .inr h
  · rintro (⟨s, hs, h⟩ | h)
    · exact .inl ⟨s, hs, (onSegment_iff (hd s hs)).2 h⟩
    · exact .inr h

/-- **C23.** For a ring without repeated vertices the answer is geometric: the point lies on a side, or
the ring goes around it - counted by the triangles that the sides make with any base point `o`. -/
theorem contains_iff_turns (nodes : List Pt) (hr : RingNodes nodes) (hd : ∀ s ∈ sides nodes, s.1 ≠ s.2)
    (p : Pt) (hv : p.isValid = true) (hp : p.Finite) (o : Pt) (ho : ∀ q ∈ nodes, ¬ OnSegment o q p) :
    ∃ b, ringContains nodes p = .ok b ∧
      (b = true ↔ (∃ s ∈ sides nodes, OnSegment s.1 s.2 p) ∨ turns o nodes p ≠ 0) := by
  classical
  refine ⟨_, ringContains_eq hr hv hp, ?_⟩
  rw [Bool.and_eq_true, decide_eq_true_eq, wind_true_iff hd]
  by_cases hb : ∃ s ∈ sides nodes, OnSegment s.1 s.2 p
  · obtain ⟨s, hs, h⟩ := hb
    have hm := mem_of_sides hs
    exact ⟨fun _ => .inl ⟨s, hs, h⟩, fun _ => ⟨inBox_of_onSegment hm.1 hm.2 h, .inl ⟨s, hs, h⟩⟩⟩
  · have hsum : ((sides nodes).map fun s => crossing s.1 s.2 p).sum = turns o nodes p := by
      obtain ⟨h4, hcl, -⟩ := hr
      cases nodes with
      | nil => simp at h4
      | cons a l =>
        have hz : (a :: l).getLast? = some a := by rw [← hcl]; rfl
        push Not at hb
        have := path_crossings o p (a :: l) a a rfl hz hb ho
        omega
    rw [hsum]
    constructor
    · exact fun h => h.2
    · intro h
      refine ⟨?_, h⟩
      by_contra hbox
      rcases h with h | h
      · exact hb h
      · exact h (by rw [← hsum]; exact crossings_outside hr.2.1 hbox)

/-- **C23.** The answer does not depend on the vertex the ring starts with. -/
theorem contains_rotate (vs : List Pt) (k : Nat) (p : Pt) :
    (∀ q ∈ vs, q.isValid = true) → 3 ≤ vs.length → p.isValid = true → p.Finite →
    ringContains (ringOf (vs.drop k ++ vs.take k)) p = ringContains (ringOf vs) p := by
  classical
  -- one step
  have step : ∀ a b (us : List Pt), (∀ q ∈ a :: b :: us, q.isValid = true) → us ≠ [] → p.isValid = true → p.Finite →
      ringContains (ringOf (b :: us ++ [a])) p = ringContains (ringOf (a :: b :: us)) p := by
    intro a b us hq hus hv hp
    have hl : 0 < us.length := List.length_pos_iff.2 hus
    have r1 : RingNodes (ringOf (a :: b :: us)) := by
      refine ⟨by simp [ringOf]; omega, by simp [ringOf, List.getLast?_cons], ?_⟩
      intro q h
      refine hq q ?_
      simp only [ringOf, List.head?_cons, Option.toList_some, List.mem_append, List.mem_singleton] at h
      rcases h with h | h
      · exact h
      · rw [h]; simp
    have r2 : RingNodes (ringOf (b :: us ++ [a])) := by
      refine ⟨by simp [ringOf]; omega, by simp [ringOf, List.getLast?_cons], ?_⟩
      intro q h
      refine hq q ?_
      simp only [ringOf, List.cons_append, List.head?_cons, Option.toList_some, List.mem_append,
        List.mem_cons, List.not_mem_nil, or_false] at h
      simp only [List.mem_cons]
      tauto
    rw [ringContains_eq r1 hv hp, ringContains_eq r2 hv hp]
    have hmem : ∀ q, q ∈ ringOf (b :: us ++ [a]) ↔ q ∈ ringOf (a :: b :: us) := by
      intro q
      simp only [ringOf, List.cons_append, List.head?_cons, Option.toList_some, List.mem_append,
        List.mem_cons, List.not_mem_nil, or_false]
      tauto
    have hbox : InBox (ringOf (b :: us ++ [a])) p ↔ InBox (ringOf (a :: b :: us)) p := by
      simp only [InBox, hmem]
    have hw : windLoop p (ringOf (b :: us ++ [a])) 0 = windLoop p (ringOf (a :: b :: us)) 0 := by
      have hperm := sides_ringOf_rotate a b us
      rw [windLoop_eq, windLoop_eq, (hperm.map _).sum_eq, Bool.eq_iff_iff]
      simp only [Bool.or_eq_true, List.any_eq_true, hperm.mem_iff]
    simp only [hw, hbox]
  intro hq hl hv hp
  induction k generalizing vs with
  | zero => simp
  | succ k ih =>
    match vs, hl with
    | a :: b :: c :: us, _ =>
      rw [← step a b (c :: us) hq (by simp) hv hp, ← ih (b :: (c :: us) ++ [a])
        (fun q h => hq q (by simp at h ⊢; tauto)) (by simp)]
      by_cases hk : k ≤ (b :: c :: us).length
      · congr 2
        rw [List.drop_append_of_le_length hk, List.take_append_of_le_length hk]
        simp
      · have h1 : (a :: b :: c :: us).length ≤ k + 1 := by simp at hk ⊢; omega
        have h2 : (b :: (c :: us) ++ [a]).length ≤ k := by simp at hk ⊢; omega
        rw [List.drop_eq_nil_of_le h1, List.take_of_length_le h1, List.drop_eq_nil_of_le h2, List.take_of_length_le h2]
        simp only [List.nil_append]
        exact (step a b (c :: us) hq (by simp) hv hp).symm

/-- **C23.** The answer does not depend on the direction of the ring. -/
theorem contains_reverse (nodes : List Pt) (hr : RingNodes nodes) (p : Pt) (hv : p.isValid = true) (hp : p.Finite) :
    ringContains nodes.reverse p = ringContains nodes p := by
  classical
  have hr' : RingNodes nodes.reverse := by
    refine ⟨by simpa using hr.1, ?_, fun q hq => hr.2.2 q (by simpa using hq)⟩
    rw [List.head?_reverse, List.getLast?_reverse, hr.2.1]
  rw [ringContains_eq hr hv hp, ringContains_eq hr' hv hp]
  have hbox : InBox nodes.reverse p ↔ InBox nodes p := by simp only [InBox, List.mem_reverse]
  have hsum : ((sides nodes.reverse).map fun s => crossing s.1 s.2 p).sum
      = - ((sides nodes).map fun s => crossing s.1 s.2 p).sum := by
    rw [sides_reverse, List.map_reverse, (List.reverse_perm _).sum_eq, List.map_map]
    generalize sides nodes = S
    induction S with
    | nil => rfl
    | cons s S ih =>
      rw [List.map_cons, List.map_cons, List.sum_cons, List.sum_cons, ih]
      simp only [Function.comp, Prod.fst_swap, Prod.snd_swap, crossing_symm s.1 s.2]
      omega
  have hw : windLoop p nodes.reverse 0 = windLoop p nodes 0 := by
    rw [windLoop_eq, windLoop_eq, hsum, sides_reverse, Bool.eq_iff_iff]
    simp only [Bool.or_eq_true, List.any_eq_true, decide_eq_true_eq, List.mem_reverse, List.mem_map, Int.zero_add]
    constructor
    · rintro (⟨s, ⟨t, ht, rfl⟩, h⟩ | h)
      · exact .inl ⟨t, ht, by rw [onSegment_symm]; exact h⟩
      · exact .inr (by omega)
    · rintro (⟨s, hs, h⟩ | h)
      · exact .inl ⟨s.swap, ⟨s, hs, rfl⟩, by rw [Prod.fst_swap, Prod.snd_swap, onSegment_symm]; exact h⟩
      · exact .inr (by omega)
  simp only [hw, hbox]

/-- **C23.** Points on the boundary count as inside, whatever the ring. -/
theorem boundary_is_inside (nodes : List Pt) (hr : RingNodes nodes) (p : Pt) (hv : p.isValid = true) (hp : p.Finite)
    (s : Pt × Pt) (hs : s ∈ sides nodes) (h : OnSegment s.1 s.2 p) : ringContains nodes p = .ok true := by
  classical
  rw [ringContains_eq hr hv hp]
  have hm := mem_of_sides hs
  have hon : onSegment s.1 s.2 p = true := by
    by_cases e : s.1 = s.2
    · rw [e]; exact onSegment_self _ _
    · exact (onSegment_iff e).2 h
  have hw : windLoop p nodes 0 = true := by
    rw [windLoop_eq, Bool.or_eq_true, List.any_eq_true]
    exact .inl ⟨s, hs, hon⟩
  simp [hw, inBox_of_onSegment hm.1 hm.2 h]

/-- **C23, violated.** Repeating a vertex does matter: a ring in which some vertex follows itself is
taken to contain its whole bounding box. -/
theorem repeated_vertex_fills_box (nodes : List Pt) (hr : RingNodes nodes) (pre post : List Pt) (v : Pt)
    (hrep : nodes = pre ++ v :: v :: post) (p : Pt) (hv : p.isValid = true) (hp : p.Finite) :
    (InBox nodes p ∧ ringContains nodes p = .ok true) ∨ (¬ InBox nodes p ∧ ringContains nodes p = .ok false) := by
  classical
  rw [ringContains_eq hr hv hp]
  have hw : windLoop p nodes 0 = true := by
    rw [windLoop_eq, Bool.or_eq_true, List.any_eq_true]
    refine .inl ⟨(v, v), ?_, onSegment_self v p⟩
    rw [hrep]; exact mem_sides_of_append pre post v v
  by_cases hb : InBox nodes p
  · exact .inl ⟨hb, by simp [hb, hw]⟩
  · exact .inr ⟨hb, by simp [hb]⟩

/-- Triangle with corners (0,0), (4,0), (0,4). -/
def tri : List Pt := [⟨0, 0⟩, ⟨4, 0⟩, ⟨0, 4⟩, ⟨0, 0⟩]
/-- The same triangle with the corner (4,0) given twice. -/
def triTwice : List Pt := [⟨0, 0⟩, ⟨4, 0⟩, ⟨4, 0⟩, ⟨0, 4⟩, ⟨0, 0⟩]

/-- **C23, violated.** The point (3,3) is outside the triangle and inside the same triangle with a
corner repeated. -/
theorem repeating_a_vertex_changes_the_answer :
    ringContains tri ⟨3, 3⟩ = .ok false ∧ ringContains triTwice ⟨3, 3⟩ = .ok true := by
  decide +kernel

/-- **C23.** A triangle contains precisely the points of its convex hull. -/
theorem triangle_contains_iff (a b c p : Pt) (h0 : area2 a b c ≠ 0)
    (ha : a.isValid = true) (hb : b.isValid = true) (hc : c.isValid = true) (hv : p.isValid = true) (hp : p.Finite) :
    ∃ r, ringContains [a, b, c, a] p = .ok r ∧
      (r = true ↔ ∃ u v w : ℚ, 0 ≤ u ∧ 0 ≤ v ∧ 0 ≤ w ∧ u + v + w = 1 ∧
        p.x = u * a.x + v * b.x + w * c.x ∧ p.y = u * a.y + v * b.y + w * c.y) := by
  classical
  have hr : RingNodes [a, b, c, a] := ⟨by simp, by simp, by simp [ha, hb, hc]⟩
  have nab : a ≠ b := by rintro rfl; exact h0 (by unfold area2; ring)
  have nbc : b ≠ c := by rintro rfl; exact h0 (by unfold area2; ring)
  have nca : c ≠ a := by rintro rfl; exact h0 (by unfold area2; ring)
  have hsd : sides [a, b, c, a] = [(a, b), (b, c), (c, a)] := rfl
  have hd : ∀ s ∈ sides [a, b, c, a], s.1 ≠ s.2 := by
    rw [hsd]; simp [nab, nbc, nca]
  have hx : p.x * area2 a b c = area2 b c p * a.x + area2 c a p * b.x + area2 a b p * c.x := by
    unfold area2; ring
  have hy : p.y * area2 a b c = area2 b c p * a.y + area2 c a p * b.y + area2 a b p * c.y := by
    unfold area2; ring
  have hsum : area2 b c p + area2 c a p + area2 a b p = area2 a b c := by unfold area2; ring
  -- hull from the three areas
  have hull : 0 ≤ area2 b c p / area2 a b c → 0 ≤ area2 c a p / area2 a b c → 0 ≤ area2 a b p / area2 a b c →
      ∃ u v w : ℚ, 0 ≤ u ∧ 0 ≤ v ∧ 0 ≤ w ∧ u + v + w = 1 ∧
        p.x = u * a.x + v * b.x + w * c.x ∧ p.y = u * a.y + v * b.y + w * c.y := by
    intro h1 h2 h3
    refine ⟨_, _, _, h1, h2, h3, ?_, ?_, ?_⟩
    · field_simp; exact hsum
    · field_simp; linarith
    · field_simp; linarith
  refine ⟨_, ringContains_eq hr hv hp, ?_⟩
  rw [Bool.and_eq_true, decide_eq_true_eq, wind_true_iff hd]
  constructor
  · rintro ⟨-, ⟨s, hs, t, t0, t1, tx, ty⟩ | h⟩
    · rw [hsd] at hs
      simp only [List.mem_cons, List.not_mem_nil, or_false] at hs
      rcases hs with rfl | rfl | rfl
      · exact ⟨1 - t, t, 0, by linarith, t0, le_refl _, by ring, by rw [tx]; ring, by rw [ty]; ring⟩
      · exact ⟨0, 1 - t, t, le_refl _, by linarith, t0, by ring, by rw [tx]; ring, by rw [ty]; ring⟩
      · exact ⟨t, 0, 1 - t, t0, le_refl _, by linarith, by ring, by rw [tx]; ring, by rw [ty]; ring⟩
    · by_cases hon : OnSegment a b p ∨ OnSegment b c p ∨ OnSegment c a p
      · rcases hon with ⟨t, t0, t1, tx, ty⟩ | ⟨t, t0, t1, tx, ty⟩ | ⟨t, t0, t1, tx, ty⟩
        · exact ⟨1 - t, t, 0, by linarith, t0, le_refl _, by ring, by rw [tx]; ring, by rw [ty]; ring⟩
        · exact ⟨0, 1 - t, t, le_refl _, by linarith, t0, by ring, by rw [tx]; ring, by rw [ty]; ring⟩
        · exact ⟨t, 0, 1 - t, t0, le_refl _, by linarith, by ring, by rw [tx]; ring, by rw [ty]; ring⟩
      · push Not at hon
        have ht := triangle_crossings a b c p hon.1 hon.2.1 hon.2.2
        rw [hsd] at h
        simp only [List.map_cons, List.map_nil, List.sum_cons, List.sum_nil] at h
        have : triangleTurn a b c p ≠ 0 := by omega
        unfold triangleTurn at this
        split_ifs at this with h1 h2
        · have hpos : 0 < area2 a b c := by linarith [h1.1, h1.2.1, h1.2.2]
          exact hull (div_pos h1.2.1 hpos).le (div_pos h1.2.2 hpos).le (div_pos h1.1 hpos).le
        · have hneg : area2 a b c < 0 := by linarith [h2.1, h2.2.1, h2.2.2]
          exact hull (div_pos_of_neg_of_neg h2.2.1 hneg).le (div_pos_of_neg_of_neg h2.2.2 hneg).le
            (div_pos_of_neg_of_neg h2.1 hneg).le
        · exact absurd rfl this
  · rintro ⟨u, v, w, u0, v0, w0, hs1, px, py⟩
    have key : (∃ s ∈ sides [a, b, c, a], OnSegment s.1 s.2 p) ∨
        ((∀ s ∈ sides [a, b, c, a], ¬ OnSegment s.1 s.2 p) ∧
          ((sides [a, b, c, a]).map fun s => crossing s.1 s.2 p).sum ≠ 0) := by
      by_cases hon : ∃ s ∈ sides [a, b, c, a], OnSegment s.1 s.2 p
      · exact .inl hon
      · refine .inr ⟨by push Not at hon; exact hon, ?_⟩
        rw [hsd] at hon ⊢
        simp only [List.mem_cons, List.not_mem_nil, or_false, exists_eq_or_imp, exists_eq_left, not_or] at hon
        have ht := triangle_crossings a b c p hon.1 hon.2.1 hon.2.2
        simp only [List.map_cons, List.map_nil, List.sum_cons, List.sum_nil]
        have hu : 0 < u := by
          refine lt_of_le_of_ne u0 fun h => hon.2.1 ⟨w, w0, by linarith, ?_, ?_⟩
          · rw [px, ← h, show 1 - w = v by linarith]; ring
          · rw [py, ← h, show 1 - w = v by linarith]; ring
        have hvv : 0 < v := by
          refine lt_of_le_of_ne v0 fun h => hon.2.2 ⟨u, u0, by linarith, ?_, ?_⟩
          · rw [px, ← h, show 1 - u = w by linarith]; ring
          · rw [py, ← h, show 1 - u = w by linarith]; ring
        have hw : 0 < w := by
          refine lt_of_le_of_ne w0 fun h => hon.1 ⟨v, v0, by linarith, ?_, ?_⟩
          · rw [px, ← h, show 1 - v = u by linarith]; ring
          · rw [py, ← h, show 1 - v = u by linarith]; ring
        have hu' : u = 1 - v - w := by linarith
        have e1 : area2 b c p = u * area2 a b c := by unfold area2; rw [px, py, hu']; ring
        have e2 : area2 c a p = v * area2 a b c := by unfold area2; rw [px, py, hu']; ring
        have e3 : area2 a b p = w * area2 a b c := by unfold area2; rw [px, py, hu']; ring
        have : triangleTurn a b c p ≠ 0 := by
          unfold triangleTurn
          rw [e1, e2, e3]
          rcases lt_or_gt_of_ne h0 with hn | hpos
          · have n1 := mul_neg_of_pos_of_neg hu hn
            have n2 := mul_neg_of_pos_of_neg hvv hn
            have n3 := mul_neg_of_pos_of_neg hw hn
            rw [if_neg (fun h => absurd h.1 (not_lt.2 n3.le)), if_pos ⟨n3, n1, n2⟩]; decide
          · rw [if_pos ⟨mul_pos hw hpos, mul_pos hu hpos, mul_pos hvv hpos⟩]; decide
        omega
    refine ⟨?_, key.imp id (fun h => h.2)⟩
    rcases key with ⟨s, hs, h⟩ | ⟨-, h⟩
    · exact inBox_of_onSegment (mem_of_sides hs).1 (mem_of_sides hs).2 h
    · by_contra hb
      exact h (crossings_outside hr.2.1 hb)

/-! ## The other ring test -/

/-- **C23, partial.** `IsPointInPolygonNodes` gives the same answer as `Polygon::Contains` for a closed
ring, as long as the point is on none of the lines that carry the sides. -/
theorem nodes_test_agrees_partial (nodes : List Pt) (hr : RingNodes nodes) (p : Pt) (hv : p.isValid = true)
    (hp : p.Finite) (hl : ∀ s ∈ sides nodes, area2 s.1 s.2 p ≠ 0) :
    ringContains nodes p = .ok (inPolygonNodes nodes p) := by
  classical
  rw [ringContains_eq hr hv hp]
  obtain ⟨h4, hcl, hval⟩ := hr
  cases nodes with
  | nil => simp at h4
  | cons a l =>
    have hz : (a :: l).getLast? = some a := by rw [← hcl]; rfl
    unfold inPolygonNodes
    rw [hz]
    simp only [List.head?_cons, Pt.same_self, Bool.not_true, Bool.false_eq_true, if_false]
    rw [if_neg (by omega), if_neg (by omega)]
    have hb : (!(boundingBox (a :: l)).contains p) = !decide (InBox (a :: l) p) := by
      congr 1
      rw [Bool.eq_iff_iff, box_iff hval hp, decide_eq_true_eq]
    rw [hb]
    have hw : windLoop p (a :: l) 0 = nodesLoop p (a :: l) 0 := by
      rw [windLoop_eq, nodesLoop_eq]
      congr 1
      rw [Bool.eq_iff_iff, List.any_eq_true, List.any_eq_true]
      constructor
      · rintro ⟨s, hs, h⟩
        exfalso
        apply hl s hs
        unfold onSegment at h
        rw [isEqual_zero, cross_eq] at h
        simp only [Bool.and_eq_true, decide_eq_true_eq] at h
        exact h.1
      · rintro ⟨s, hs, h⟩
        exact absurd (by simpa using h) (hl s hs)
    rw [hw]
    by_cases hbox : InBox (a :: l) p <;> simp [hbox]

/-- **C23, violated.** `IsPointInPolygonNodes` - used to find the face a point lies in and to average
samples over a cell - takes a point for inside that only lies on the extension of a side. -/
theorem nodes_test_accepts_extension_of_side :
    inPolygonNodes [⟨0, 0⟩, ⟨4, 2⟩, ⟨2, 2⟩, ⟨0, 0⟩] ⟨1, 2⟩ = true ∧
    ringContains [⟨0, 0⟩, ⟨4, 2⟩, ⟨2, 2⟩, ⟨0, 0⟩] ⟨1, 2⟩ = .ok false := by decide +kernel

/-! ## Lists of polygons -/

section Lists
variable (inside : List Pt → Pt → Bool)

theorem region_exterior {e : Enclosure} {p : Pt} (hv : p.isValid = true) :
    containsRegion inside e p = .exterior ↔ InArea inside e p := by
  unfold containsRegion InArea
  rw [hv, Bool.true_and]
  by_cases h : inside e.outer p = true
  · by_cases h2 : e.inner.any (fun r => inside r p) = true
    · simp only [h, h2, if_true, true_and]
      refine ⟨(fun h => by cases h), fun hall => ?_⟩
      obtain ⟨r, hr, hrp⟩ := List.any_eq_true.1 h2
      rw [hall r hr] at hrp; cases hrp
    · simp only [h, h2, if_true, Bool.false_eq_true, if_false, true_and, true_iff]
      intro r hr
      by_contra hrp
      exact h2 (List.any_eq_true.2 ⟨r, hr, by simpa using hrp⟩)
  · simp [h]

theorem region_interior {e : Enclosure} {p : Pt} (hv : p.isValid = true) :
    containsRegion inside e p = .interior ↔ InHole inside e p := by
  unfold containsRegion InHole
  rw [hv, Bool.true_and]
  by_cases h : inside e.outer p = true
  · by_cases h2 : e.inner.any (fun r => inside r p) = true
    · simp only [h, h2, if_true, true_and, true_iff]
      exact List.any_eq_true.1 h2
    · simp only [h, h2, if_true, Bool.false_eq_true, if_false, true_and]
      refine ⟨(fun h => by cases h), fun hex => absurd (List.any_eq_true.2 hex) h2⟩
  · simp [h]

/-- **C23.** Without polygons every point is inside. -/
theorem no_polygon_contains_everything (p : Pt) (i : Nat) :
    (isPointInPolygons inside [] p).1 = true ∧ isPointInAnyPolygon inside [] p = true ∧
      isPointInPolygon inside [] p i = .ok true := ⟨rfl, rfl, rfl⟩

/-- **C23.** The two list queries give the same answer. -/
theorem list_queries_agree (es : List Enclosure) (p : Pt) :
    (isPointInPolygons inside es p).1 = isPointInAnyPolygon inside es p := by
  unfold isPointInPolygons isPointInAnyPolygon
  split
  · rfl
  · have key : ∀ (es : List Enclosure) (i : Nat), (inPolygonsLoop inside p es i).1 = inAnyLoop inside p es := by
      intro es
      induction es with
      | nil => intro i; rfl
      | cons e es ih =>
        intro i
        rw [inPolygonsLoop, inAnyLoop]
        cases h : containsRegion inside e p <;> simp [ih]
    exact key es 0

/-- **C23.** A positive answer names a polygon that contains the point: it lies in the outer ring and
in none of the holes. -/
theorem positive_answer_is_right (es : List Enclosure) (hne : es ≠ []) (p : Pt) (i : Nat)
    (h : isPointInPolygons inside es p = (true, i)) :
    p.isValid = true ∧ ∃ e, es[i]? = some e ∧ InArea inside e p ∧
      isPointInPolygon inside es p i = .ok true := by
  have hv : p.isValid = true := by
    by_contra hv
    have key : ∀ (es : List Enclosure) (i : Nat), (inPolygonsLoop inside p es i).1 = false := by
      intro es
      induction es with
      | nil => intro i; rfl
      | cons e es ih => intro i; simp [inPolygonsLoop, containsRegion, hv, ih]
    have he : es.isEmpty = false := by cases es <;> simp at hne ⊢
    simp only [isPointInPolygons, he, Bool.false_eq_true, if_false] at h
    have := key es 0
    rw [h] at this; cases this
  refine ⟨hv, ?_⟩
  have he : es.isEmpty = false := by cases es <;> simp at hne ⊢
  simp only [isPointInPolygons, he, Bool.false_eq_true, if_false] at h
  have key : ∀ (es : List Enclosure) (n i : Nat), inPolygonsLoop inside p es n = (true, i) →
      n ≤ i ∧ ∃ e, es[i - n]? = some e ∧ InArea inside e p := by
    intro es
    induction es with
    | nil => intro n i h; cases h
    | cons e es ih =>
      intro n i h
      rw [inPolygonsLoop] at h
      split_ifs at h with h1 h2
      · cases h
        exact ⟨le_refl _, e, by simp, (region_exterior inside hv).1 h1⟩
      · cases h
      · obtain ⟨hle, e', he', hin⟩ := ih (n + 1) i h
        refine ⟨by omega, e', ?_, hin⟩
        rw [show i - n = i - (n + 1) + 1 by omega, List.getElem?_cons_succ]; exact he'
  obtain ⟨-, e, he', hin⟩ := key es 0 i h
  rw [Nat.sub_zero] at he'
  refine ⟨e, he', hin, ?_⟩
  have hlt := (List.getElem?_eq_some_iff.1 he').1
  simp only [isPointInPolygon, he, Bool.false_eq_true, if_false, vget, he', Res.ok_bind]
  rw [if_neg (by omega)]
  simp only [enclosureContains, (region_exterior inside hv).2 hin, decide_true]

/-- **C23, partial.** The answer is "in some outer ring and in none of its holes", as long as no
polygon lies where another one has a hole: for this point, at most one of the two happens. -/
theorem list_answer_partial (es : List Enclosure) (hne : es ≠ []) (p : Pt) (hv : p.isValid = true)
    (hisl : (∃ e ∈ es, InHole inside e p) → ¬ ∃ e ∈ es, InArea inside e p) :
    (isPointInPolygons inside es p).1 = true ↔ ∃ e ∈ es, InArea inside e p := by
  have he : es.isEmpty = false := by cases es <;> simp at hne ⊢
  simp only [isPointInPolygons, he, Bool.false_eq_true, if_false]
  clear he hne
  have key : ∀ (es : List Enclosure) (i : Nat), ((∃ e ∈ es, InHole inside e p) → ¬ ∃ e ∈ es, InArea inside e p) →
      ((inPolygonsLoop inside p es i).1 = true ↔ ∃ e ∈ es, InArea inside e p) := by
    intro es
    induction es with
    | nil => intro i _; simp [inPolygonsLoop]
    | cons e es ih =>
      intro i hisl
      rw [inPolygonsLoop]
      split_ifs with h1 h2
      · exact ⟨fun _ => ⟨e, by simp, (region_exterior inside hv).1 h1⟩, fun _ => rfl⟩
      · have := hisl ⟨e, by simp, (region_interior inside hv).1 h2⟩
        exact ⟨(fun h => by cases h), fun h => absurd h this⟩
      · rw [ih (i + 1) (fun ⟨x, hx, hh⟩ ⟨y, hy, hy'⟩ => hisl ⟨x, by simp [hx], hh⟩ ⟨y, by simp [hy], hy'⟩)]
        constructor
        · rintro ⟨x, hx, hh⟩; exact ⟨x, by simp [hx], hh⟩
        · rintro ⟨x, hx, hh⟩
          rcases List.mem_cons.1 hx with rfl | hx
          · exact absurd ((region_exterior inside hv).2 hh) h1
          · exact ⟨x, hx, hh⟩
  exact key es 0 hisl

/-- **C23, partial.** Under the same condition the answer does not depend on the order of the polygons. -/
theorem list_order_irrelevant_partial (es fs : List Enclosure) (hperm : es.Perm fs) (p : Pt)
    (hv : p.isValid = true)
    (hisl : (∃ e ∈ es, InHole inside e p) → ¬ ∃ e ∈ es, InArea inside e p) :
    (isPointInPolygons inside es p).1 = (isPointInPolygons inside fs p).1 := by
  by_cases hne : es = []
  · subst hne; rw [List.nil_perm.1 hperm]
  · have hnf : fs ≠ [] := fun h => hne (by rw [h] at hperm; exact List.perm_nil.1 hperm)
    rw [Bool.eq_iff_iff, list_answer_partial inside es hne p hv hisl, list_answer_partial inside fs hnf p hv]
    · simp only [hperm.mem_iff]
    · simpa only [hperm.mem_iff] using hisl

end Lists

/-- A square with a square hole. -/
def lake : Enclosure :=
  ⟨[⟨0, 0⟩, ⟨10, 0⟩, ⟨10, 10⟩, ⟨0, 10⟩, ⟨0, 0⟩], [[⟨2, 2⟩, ⟨8, 2⟩, ⟨8, 8⟩, ⟨2, 8⟩, ⟨2, 2⟩]]⟩
/-- An island in the hole. -/
def island : Enclosure := ⟨[⟨4, 4⟩, ⟨6, 4⟩, ⟨6, 6⟩, ⟨4, 6⟩, ⟨4, 4⟩], []⟩

/-- **C23, violated.** A point of an island in the hole of another polygon is inside or outside
depending on the order in which the two polygons are given. -/
theorem island_in_hole_depends_on_order :
    InArea ringInside island ⟨5, 5⟩ ∧ isPointInPolygons ringInside [lake, island] ⟨5, 5⟩ = (false, missing) ∧
    isPointInPolygons ringInside [island, lake] ⟨5, 5⟩ = (true, 0) ∧
    isPointInAnyPolygon ringInside [lake, island] ⟨5, 5⟩ = false ∧
    isPointInAnyPolygon ringInside [island, lake] ⟨5, 5⟩ = true := by
  unfold InArea; decide +kernel

/-! ## The hypotheses can be met -/

instance (p : Pt) : Decidable p.Finite := by unfold Pt.Finite; infer_instance
instance (l : List Pt) : Decidable (RingNodes l) := by unfold RingNodes; infer_instance

theorem tri_area : area2 ⟨0, 0⟩ ⟨4, 0⟩ ⟨0, 4⟩ ≠ 0 := by decide +kernel

example : ringContains tri ⟨1, 1⟩ = .ok true := by
  obtain ⟨r, h1, h2⟩ := triangle_contains_iff ⟨0, 0⟩ ⟨4, 0⟩ ⟨0, 4⟩ ⟨1, 1⟩ tri_area (by decide +kernel)
    (by decide +kernel) (by decide +kernel) (by decide +kernel) (by decide +kernel)
  have := h2.2 ⟨1 / 2, 1 / 4, 1 / 4, by norm_num, by norm_num, by norm_num, by norm_num, by norm_num, by norm_num⟩
  rw [this] at h1; exact h1

/-- A concave ring, a point inside it and a base point for `contains_iff_turns`. -/
def arrow : List Pt := [⟨0, 0⟩, ⟨8, 0⟩, ⟨8, 8⟩, ⟨4, 2⟩, ⟨0, 8⟩, ⟨0, 0⟩]

theorem not_onSegment_of_area {a b p : Pt} (h : area2 a b p ≠ 0) : ¬ OnSegment a b p := by
  rintro ⟨t, -, -, hx, hy⟩
  apply h
  unfold area2; rw [hx, hy]; ring

example : ringContains arrow ⟨1, 1⟩ = .ok true ∧ turns ⟨-7, 3⟩ arrow ⟨1, 1⟩ = 1 := by
  obtain ⟨b, h1, h2⟩ := contains_iff_turns arrow (by decide +kernel) (by decide +kernel) ⟨1, 1⟩ (by decide +kernel)
    (by decide +kernel) ⟨-7, 3⟩ (by
      have : ∀ q ∈ arrow, area2 ⟨-7, 3⟩ q ⟨1, 1⟩ ≠ 0 := by decide +kernel
      exact fun q hq => not_onSegment_of_area (this q hq))
  have ht : turns ⟨-7, 3⟩ arrow ⟨1, 1⟩ = 1 := by decide +kernel
  have := h2.2 (.inr (by rw [ht]; decide))
  rw [this] at h1
  exact ⟨h1, ht⟩

example : ringContains (ringOf [⟨8, 8⟩, ⟨4, 2⟩, ⟨0, 8⟩, ⟨0, 0⟩, ⟨8, 0⟩]) ⟨1, 1⟩ = ringContains arrow ⟨1, 1⟩ :=
  contains_rotate [⟨0, 0⟩, ⟨8, 0⟩, ⟨8, 8⟩, ⟨4, 2⟩, ⟨0, 8⟩] 2 ⟨1, 1⟩ (by decide +kernel) (by decide) (by decide +kernel)
    (by decide +kernel)

/-- Two polygons side by side, one with a hole: the condition of the partial theorems holds. -/
example : (isPointInPolygons ringInside [lake, ⟨[⟨20, 0⟩, ⟨30, 0⟩, ⟨30, 10⟩, ⟨20, 0⟩], []⟩] ⟨1, 1⟩).1 = true := by
  refine (list_answer_partial ringInside _ (by simp) ⟨1, 1⟩ (by decide +kernel) ?_).2 ⟨lake, by simp, ?_⟩
  · unfold InHole InArea; decide +kernel
  · unfold InArea; decide +kernel

end Verif.Polygons
