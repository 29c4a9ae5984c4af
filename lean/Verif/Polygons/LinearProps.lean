import Verif.Polygons.LinearSupport

/-! # Linear refinement of a polygon: properties -/

namespace Verif.Polygons

/-- The nodes of the range, seen from outside: from the start to the end position, around the ring if necessary. -/
theorem rangeNodes_length {nodes : List Pt} {s e : Nat} (hs : s < nodes.length) (he : e < nodes.length) :
    (rangeNodes nodes s e).length = if s < e then e - s + 1 else nodes.length - s + e := by
  unfold rangeNodes
  split
  · rw [List.length_take, List.length_drop]; omega
  · rw [List.length_append, List.length_drop, List.length_drop, List.length_take]; omega

/-- The range begins and ends at the given positions, if the ring is closed. -/
theorem rangeNodes_ends {nodes : List Pt} {s e : Nat} (hs : s < nodes.length) (he : e < nodes.length)
    (hne : s ≠ e) (hclosed : nodes[0]? = nodes[nodes.length - 1]?) :
    (rangeNodes nodes s e)[0]? = nodes[s]? ∧
    (rangeNodes nodes s e)[(rangeNodes nodes s e).length - 1]? = nodes[e]? := by
  rw [rangeNodes_length hs he]
  unfold rangeNodes
  split
  · refine ⟨?_, ?_⟩
    · rw [List.getElem?_take_of_lt (by omega), List.getElem?_drop]; rfl
    · rw [List.getElem?_take_of_lt (by omega), List.getElem?_drop]
      congr 1; omega
  · refine ⟨?_, ?_⟩
    · rw [List.getElem?_append_left (by rw [List.length_drop]; omega), List.getElem?_drop]; rfl
    · rcases Nat.eq_zero_or_pos e with rfl | hpos
      · rw [List.getElem?_append_left (by rw [List.length_drop]; omega), List.getElem?_drop, hclosed]
        congr 1; omega
      · rw [List.getElem?_append_right (by rw [List.length_drop]; omega), List.length_drop, List.getElem?_drop,
          List.getElem?_take_of_lt (by omega)]
        congr 1; omega

/-- What linear refinement returns: the nodes outside the range stay; in between stands a sampling of the range, that is
points of the old polyline at increasing lengths from the start to the end of the range — or, if the loop runs out of
rounds, a sampling with a missing point after it or without its last node.  Missing: that the last two never happen, which is
false (`linear_refine_returns_missing`). -/
theorem linear_refine_outcome_partial {dist : Pt → Pt → ℚ} {nodes : List Pt} {s e : Nat} (h4 : 4 ≤ nodes.length)
    (hs : s < nodes.length) (he : e < nodes.length) (hne : s ≠ e) (hw : ¬ (s = nodes.length - 1 ∧ e = 0))
    (hpos : SidesPositive dist (rangeNodes nodes s e)) :
    ∃ g mid, SampledAt dist (rangeNodes nodes s e) g ∧ (mid = g ∨ mid = g ++ [missingPt] ∨ mid = g.dropLast) ∧
      linearRefine dist nodes s e = .ok (if s < e then nodes.take s ++ mid ++ nodes.drop (e + 1)
        else (nodes.take s).drop e ++ mid) := by
  have hlen := rangeNodes_length hs he
  have h2 : 2 ≤ (rangeNodes nodes s e).length := by
    rw [hlen]
    split <;> omega
  obtain ⟨r, hr, g, hg, hor⟩ := resample_outcome hpos h2
  refine ⟨g, r, hg, hor, ?_⟩
  unfold linearRefine
  rw [if_neg (by omega), if_neg (by omega), if_neg hne, if_neg (by omega), hr, Res.ok_bind]
  split <;> rfl

/-- If the first and the last side of the range have the same length `c`, and the range is at most `2 * c` times as long as
its number of sides, the range is divided into `m` equal pieces, where `m` pieces of length `c` are at most one and a half
pieces longer than the range and at most half a piece shorter. -/
theorem linear_refine_equal_ends {dist : Pt → Pt → ℚ} {nodes R : List Pt} {s e : Nat} (h4 : 4 ≤ nodes.length)
    (hs : s < nodes.length) (he : e < nodes.length) (hne : s ≠ e) (hR : rangeNodes nodes s e = R)
    (hpos : SidesPositive dist R) (h2 : 2 ≤ R.length) {c : ℚ} (hfirst : dist R[1] R[0] = c)
    (hlast : dist R[R.length - 1] R[R.length - 2] = c)
    (hlong : lengthTo dist R (R.length - 1) ≤ 2 * ((R.length - 1 : Nat) : ℚ) * c) :
    ∃ g m, FinalCount (lengthTo dist R (R.length - 1)) c m ∧ g.length = m + 1 ∧
      (∀ (k : Nat) (p : Pt), g[k]? = some p → AtLength dist R (k * (lengthTo dist R (R.length - 1) / m)) p) ∧
      linearRefine dist nodes s e = .ok (if s < e then nodes.take s ++ g ++ nodes.drop (e + 1)
        else (nodes.take s).drop e ++ g) := by
  obtain ⟨g, m, hg, hfin, hlen, hat⟩ := resample_equal_ends hpos h2 hfirst hlast hlong
  refine ⟨g, m, hfin, hlen, hat, ?_⟩
  unfold linearRefine
  rw [if_neg (by omega), if_neg (by omega), if_neg hne, if_neg (by omega), hR, hg, Res.ok_bind]
  split <;> rfl

/-- If the end sides are equal but the range is too long compared with its number of sides, the list of points returned
contains a missing point, which separates polygons. -/
theorem linear_refine_long_range_missing {dist : Pt → Pt → ℚ} {nodes R : List Pt} {s e : Nat} (h4 : 4 ≤ nodes.length)
    (hs : s < nodes.length) (he : e < nodes.length) (hne : s ≠ e) (hR : rangeNodes nodes s e = R)
    (hpos : SidesPositive dist R) (h2 : 2 ≤ R.length) {c : ℚ} (hfirst : dist R[1] R[0] = c)
    (hlast : dist R[R.length - 1] R[R.length - 2] = c)
    (hlong : 2 * ((R.length - 1 + R.length : Nat) : ℚ) * c < lengthTo dist R (R.length - 1)) :
    ∃ r, linearRefine dist nodes s e = .ok r ∧ missingPt ∈ r := by
  obtain ⟨g, hg, hm⟩ := resample_long_range_missing hpos h2 hfirst hlast hlong
  unfold linearRefine
  rw [if_neg (by omega), if_neg (by omega), if_neg hne, if_neg (by omega), hR, hg, Res.ok_bind]
  split
  · exact ⟨_, rfl, by simp [hm]⟩
  · exact ⟨_, rfl, by simp [hm]⟩

example : rangeNodes [⟨0, 0⟩, ⟨1, 0⟩, ⟨1, 3⟩, ⟨0, 3⟩, ⟨0, 0⟩] 0 3 = [⟨0, 0⟩, ⟨1, 0⟩, ⟨1, 3⟩, ⟨0, 3⟩] ∧
    axisDist ⟨1, 0⟩ ⟨0, 0⟩ = 1 ∧ axisDist ⟨0, 3⟩ ⟨1, 3⟩ = 1 ∧
    lengthTo axisDist [⟨0, 0⟩, ⟨1, 0⟩, ⟨1, 3⟩, ⟨0, 3⟩] 3 = 5 ∧ (5 : ℚ) ≤ 2 * 3 * 1 ∧ FinalCount 5 1 5 := by
  refine ⟨rfl, by decide +kernel, by decide +kernel, by decide +kernel, by norm_num, ?_⟩
  norm_num [FinalCount]

example : lengthTo axisDist [⟨0, 0⟩, ⟨1, 0⟩, ⟨1, 1000⟩, ⟨0, 1000⟩] 3 = 1002 ∧ (2 * (3 + 4) * 1 : ℚ) < 1002 := by
  refine ⟨by decide +kernel, by norm_num⟩

/-- A concrete case: a rectangle of 1 by 1000. -/
theorem linear_refine_returns_missing :
    linearRefine axisDist [⟨0, 0⟩, ⟨1, 0⟩, ⟨1, 1000⟩, ⟨0, 1000⟩, ⟨0, 0⟩] 0 3 =
      .ok [⟨0, 0⟩, ⟨1, 166⟩, ⟨1, 333⟩, ⟨1, 500⟩, ⟨1, 667⟩, ⟨1, 834⟩, ⟨0, 1000⟩, missingPt, ⟨0, 0⟩] := by decide +kernel

/-- From the last to the first position of a ring, which are the same vertex: an access out of bounds. -/
theorem linear_refine_last_to_first_undefined {dist : Pt → Pt → ℚ} {nodes : List Pt} (h4 : 4 ≤ nodes.length) :
    linearRefine dist nodes (nodes.length - 1) 0 = .ub := by
  unfold linearRefine
  rw [if_neg (by omega), if_neg (by omega), if_neg (by omega), if_neg (by omega)]
  have hlen := rangeNodes_length (nodes := nodes) (s := nodes.length - 1) (e := 0) (by omega) (by omega)
  rw [if_neg (by omega)] at hlen
  have h1 : (rangeNodes nodes (nodes.length - 1) 0).length = 1 := by omega
  obtain ⟨a, ha⟩ := List.length_eq_one_iff.1 h1
  rw [ha]
  rfl

/-- Positions outside the ring are refused; equal positions and rings with fewer than four nodes change nothing. -/
theorem linear_refine_arguments {dist : Pt → Pt → ℚ} {nodes : List Pt} {s e : Nat} :
    (nodes.length ≤ s ∨ nodes.length ≤ e → linearRefine dist nodes s e = .throw) ∧
    (s < nodes.length → e < nodes.length → s = e ∨ nodes.length < 4 → linearRefine dist nodes s e = .ok nodes) := by
  unfold linearRefine
  constructor
  · rintro (h | h)
    · rw [if_pos h]
    · split
      · rfl
      · rfl
  · intro hs he h
    rw [if_neg (by omega), if_neg (by omega)]
    split
    · rfl
    · rw [if_pos (by omega)]

/-- Through a list of polygons: the outer ring of the polygon asked for is refined; an index that is too large is refused. -/
theorem linear_refine_polygon (dist : Pt → Pt → ℚ) (as : List Area) (h : ∀ a ∈ as, a.Separable)
    (hc : ∀ a ∈ as, ∀ r ∈ a.rings, ClosedRing r) (k s e : Nat) :
    ∃ P, polygonsCtor (flat as) = .ok P ∧
      linearRefinePolygon dist P k s e =
        match as[k]? with
        | none => .throw
        | some a => linearRefine dist a.1 s e := by
  refine ⟨_, polygonsCtor_ok as h hc, ?_⟩
  unfold linearRefinePolygon
  simp only [List.getElem?_map]
  cases as[k]? <;> rfl

example : SidesPositive axisDist (rangeNodes [⟨0, 0⟩, ⟨1, 0⟩, ⟨1, 3⟩, ⟨0, 3⟩, ⟨0, 0⟩] 0 3) ∧
    linearRefine axisDist [⟨0, 0⟩, ⟨1, 0⟩, ⟨1, 3⟩, ⟨0, 3⟩, ⟨0, 0⟩] 0 3 =
      .ok [⟨0, 0⟩, ⟨1, 0⟩, ⟨1, 1⟩, ⟨1, 2⟩, ⟨1, 3⟩, ⟨0, 3⟩, ⟨0, 0⟩] := by
  refine ⟨⟨?_, ?_, ?_, trivial⟩, by decide +kernel⟩ <;> norm_num [axisDist]

example : SidesPositive axisDist (rangeNodes [⟨0, 0⟩, ⟨1, 0⟩, ⟨1, 3⟩, ⟨0, 3⟩, ⟨0, 0⟩] 3 1) ∧
    linearRefine axisDist [⟨0, 0⟩, ⟨1, 0⟩, ⟨1, 3⟩, ⟨0, 3⟩, ⟨0, 0⟩] 3 1 =
      .ok [⟨1, 0⟩, ⟨1, 3⟩, ⟨0, 3⟩, ⟨0, 63757904493 / 137379191137⟩, ⟨1, 0⟩] := by
  refine ⟨⟨?_, ?_, trivial⟩, by decide +kernel⟩ <;> norm_num [axisDist]

end Verif.Polygons
