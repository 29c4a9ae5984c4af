import Verif.Gridded.Lemmas
/-!
# Properties: bilinear interpolation on gridded samples (C64)
-/
namespace Verif.Gridded
open Verif.Mesh
open Verif.Polygons (Pt)

/-- Three columns with cell size 2 from 1 on, two rows one by one. -/
def plain : Samples := ⟨.regular 1 2 3, .listed [0, 1, 4], [1, 2, 3, 4, 5, 6, 7, 8, 9]⟩

theorem proper_plain : plain.Proper := ⟨by show (0 : ℚ) < 2; norm_num, by show List.Pairwise _ _; decide, rfl, by decide, by decide⟩

/-! ## The value inside -/

/-- **C64.** A location between two neighbouring coordinates in both directions and before the last ones has the value of the bilinear function through the four
samples around it.  On a side the location lies between two pairs of coordinates, and both functions give the value: it changes continuously. -/
theorem value_is_bilinear {g : Samples} (hg : g.Proper) {p : Pt} {i j : Nat} {x0 x1 y0 y1 : ℚ} (hx : g.xs.Between i x0 x1 p.x) (hy : g.ys.Between j y0 y1 p.y) :
    ∃ a b c d, g.at i j = some a ∧ g.at (i + 1) j = some b ∧ g.at i (j + 1) = some c ∧ g.at (i + 1) (j + 1) = some d ∧
      interpolate g p = .ok (some (bilinear x0 x1 y0 y1 a b c d p.x p.y)) := by
  have lx0 := coord_lt hx.first
  have lx1 := coord_lt hx.second
  have ly0 := coord_lt hy.first
  have ly1 := coord_lt hy.second
  obtain ⟨a, ha⟩ := at_some hg lx0 ly0
  obtain ⟨b, hb⟩ := at_some hg lx1 ly0
  obtain ⟨c, hc⟩ := at_some hg lx0 ly1
  obtain ⟨d, hd⟩ := at_some hg lx1 ly1
  have qx := coord_ne hg.xs hx.first hx.second
  have qy := coord_ne hg.ys hy.first hy.second
  refine ⟨a, b, c, d, ha, hb, hc, hd, ?_⟩
  rcases half_open hg.xs hx with h1 | ⟨h1, x2, hx2, h1'⟩
  · rcases half_open hg.ys hy with h2 | ⟨h2, y2, hy2, h2'⟩
    · exact cell_value hg hx.first hx.second hy.first hy.second hx.low h1 hy.low h2 ha hb hc hd
    · obtain ⟨e, he⟩ := at_some hg lx0 (coord_lt hy2)
      obtain ⟨f, hf⟩ := at_some hg lx1 (coord_lt hy2)
      rw [cell_value hg hx.first hx.second hy.second hy2 hx.low h1 h2.ge h2' hc hd he hf, h2, bilinear_above qx qy (h2 ▸ h2')]
  · obtain ⟨e, he⟩ := at_some hg (coord_lt hx2) ly0
    obtain ⟨f, hf⟩ := at_some hg (coord_lt hx2) ly1
    have qx2 : x1 < x2 := h1 ▸ h1'
    rcases half_open hg.ys hy with h2 | ⟨h2, y2, hy2, h2'⟩
    · rw [cell_value hg hx.second hx2 hy.first hy.second h1.ge h1' hy.low h2 hb he hd hf, h1, bilinear_right qx qx2 qy]
    · obtain ⟨u, hu⟩ := at_some hg lx1 (coord_lt hy2)
      obtain ⟨w, hw⟩ := at_some hg (coord_lt hx2) (coord_lt hy2)
      have qy2 : y1 < y2 := h2 ▸ h2'
      rw [cell_value hg hx.second hx2 hy.second hy2 h1.ge h1' h2.ge h2' hd hf hu hw, h1, h2, bilinear_above (a := b) (b := e) qx2 qy qy2,
        bilinear_right qx qx2 qy]

example : plain.xs.Between 0 1 3 2 ∧ plain.ys.Between 1 1 4 1 ∧ plain.ys.Between 0 0 1 1 ∧ interpolate plain ⟨2, 1⟩ = .ok (some (9 / 2)) :=
  ⟨⟨by decide +kernel, by decide +kernel, by norm_num, by norm_num, 2, 5, by decide +kernel, by norm_num⟩,
    ⟨by decide +kernel, by decide +kernel, by norm_num, by norm_num, 2, 4, by decide +kernel, by norm_num⟩,
    ⟨by decide +kernel, by decide +kernel, by norm_num, by norm_num, 2, 4, by decide +kernel, by norm_num⟩, by decide +kernel⟩

/-- **C64.** At a sample that is not in the last column or row the value is that of the sample. -/
theorem value_at_sample {g : Samples} (hg : g.Proper) {i j : Nat} {x x1 y y1 : ℚ} (hx : g.xs.coord i = some x) (hx1 : g.xs.coord (i + 1) = some x1)
    (hy : g.ys.coord j = some y) (hy1 : g.ys.coord (j + 1) = some y1) : ∃ a, g.at i j = some a ∧ interpolate g ⟨x, y⟩ = .ok (some a) := by
  have qx := coord_ne hg.xs hx hx1
  have qy := coord_ne hg.ys hy hy1
  obtain ⟨a, b, c, d, ha, -, -, -, h⟩ := value_is_bilinear hg (p := ⟨x, y⟩) (i := i) (j := j) (x0 := x) (x1 := x1) (y0 := y) (y1 := y1)
    ⟨hx, hx1, le_rfl, qx.le, _, _, hx1, qx⟩ ⟨hy, hy1, le_rfl, qy.le, _, _, hy1, qy⟩
  refine ⟨a, ha, ?_⟩
  rw [h]
  congr 2
  unfold bilinear
  have q1 : x1 - x ≠ 0 := by linarith
  have q2 : y1 - y ≠ 0 := by linarith
  field_simp
  ring

example : plain.xs.coord 1 = some 3 ∧ plain.xs.coord 2 = some 5 ∧ plain.ys.coord 1 = some 1 ∧ plain.ys.coord 2 = some 4 ∧
    interpolate plain ⟨3, 1⟩ = .ok (some 5) := by decide +kernel

/-- **C64.** The value lies between the smallest and the largest of the four samples around. -/
theorem value_between {g : Samples} (hg : g.Proper) {p : Pt} {i j : Nat} {x0 x1 y0 y1 : ℚ} (hx : g.xs.Between i x0 x1 p.x) (hy : g.ys.Between j y0 y1 p.y)
    {lo hi : ℚ} (h : ∀ k l v, (k = i ∨ k = i + 1) → (l = j ∨ l = j + 1) → g.at k l = some v → lo ≤ v ∧ v ≤ hi) :
    ∃ v, interpolate g p = .ok (some v) ∧ lo ≤ v ∧ v ≤ hi := by
  obtain ⟨a, b, c, d, ha, hb, hc, hd, he⟩ := value_is_bilinear hg hx hy
  have qx : 0 < x1 - x0 := by linarith [coord_ne hg.xs hx.first hx.second]
  have qy : 0 < y1 - y0 := by linarith [coord_ne hg.ys hy.first hy.second]
  have qq := mul_pos qx qy
  obtain ⟨a1, a2⟩ := h i j a (.inl rfl) (.inl rfl) ha
  obtain ⟨b1, b2⟩ := h (i + 1) j b (.inr rfl) (.inl rfl) hb
  obtain ⟨c1, c2⟩ := h i (j + 1) c (.inl rfl) (.inr rfl) hc
  obtain ⟨d1, d2⟩ := h (i + 1) (j + 1) d (.inr rfl) (.inr rfl) hd
  have w1 : 0 ≤ (x1 - p.x) * (y1 - p.y) := mul_nonneg (by linarith [hx.high]) (by linarith [hy.high])
  have w2 : 0 ≤ (p.x - x0) * (y1 - p.y) := mul_nonneg (by linarith [hx.low]) (by linarith [hy.high])
  have w3 : 0 ≤ (x1 - p.x) * (p.y - y0) := mul_nonneg (by linarith [hx.high]) (by linarith [hy.low])
  have w4 : 0 ≤ (p.x - x0) * (p.y - y0) := mul_nonneg (by linarith [hx.low]) (by linarith [hy.low])
  have hsum : (x1 - p.x) * (y1 - p.y) + (p.x - x0) * (y1 - p.y) + (x1 - p.x) * (p.y - y0) + (p.x - x0) * (p.y - y0) = (x1 - x0) * (y1 - y0) := by ring
  refine ⟨_, he, ?_, ?_⟩
  · unfold bilinear
    rw [le_div_iff₀ qq, ← hsum]
    nlinarith [mul_le_mul_of_nonneg_left a1 w1, mul_le_mul_of_nonneg_left b1 w2, mul_le_mul_of_nonneg_left c1 w3, mul_le_mul_of_nonneg_left d1 w4]
  · unfold bilinear
    rw [div_le_iff₀ qq, ← hsum]
    nlinarith [mul_le_mul_of_nonneg_left a2 w1, mul_le_mul_of_nonneg_left b2 w2, mul_le_mul_of_nonneg_left c2 w3, mul_le_mul_of_nonneg_left d2 w4]

/-- **C64.** Samples of a bilinear function are interpolated without error. -/
theorem value_exact {g : Samples} (hg : g.Proper) {p : Pt} {i j : Nat} {x0 x1 y0 y1 : ℚ} (hx : g.xs.Between i x0 x1 p.x) (hy : g.ys.Between j y0 y1 p.y)
    {α β γ δ : ℚ} (h : ∀ k l x y v, g.xs.coord k = some x → g.ys.coord l = some y → g.at k l = some v → v = α + β * x + γ * y + δ * x * y) :
    interpolate g p = .ok (some (α + β * p.x + γ * p.y + δ * p.x * p.y)) := by
  obtain ⟨a, b, c, d, ha, hb, hc, hd, he⟩ := value_is_bilinear hg hx hy
  have q1 : x1 - x0 ≠ 0 := by linarith [coord_ne hg.xs hx.first hx.second]
  have q2 : y1 - y0 ≠ 0 := by linarith [coord_ne hg.ys hy.first hy.second]
  rw [he, h _ _ _ _ _ hx.first hy.first ha, h _ _ _ _ _ hx.second hy.first hb, h _ _ _ _ _ hx.first hy.second hc, h _ _ _ _ _ hx.second hy.second hd]
  congr 2
  unfold bilinear
  field_simp
  ring

example : ∀ k l x y v, (⟨.regular 1 2 3, .listed [0, 1], [5, 9, 13, 7, 13, 19]⟩ : Samples).xs.coord k = some x →
    (⟨.regular 1 2 3, .listed [0, 1], [5, 9, 13, 7, 13, 19]⟩ : Samples).ys.coord l = some y →
    (⟨.regular 1 2 3, .listed [0, 1], [5, 9, 13, 7, 13, 19]⟩ : Samples).at k l = some v → v = 3 + 2 * x + 1 * y + 1 * x * y := by
  intro k l x y v hx hy hv
  have h1 := coord_lt hx
  have h2 := coord_lt hy
  have h1' : k < 3 := h1
  have h2' : l < 2 := h2
  obtain rfl | rfl | rfl : k = 0 ∨ k = 1 ∨ k = 2 := by omega
  all_goals
    obtain rfl | rfl : l = 0 ∨ l = 1 := by omega
    all_goals
      simp [Axis.coord, Samples.at, Axis.num] at hx hy hv
      subst hx hy hv
      norm_num

/-! ## The value outside -/

/-- Coordinates given one by one: a location before the first or at or beyond the last one has no value, whatever their order. -/
theorem listed_outside {g : Samples} {xs : List ℚ} (hxs : g.xs = .listed xs) (p : Pt) (h : ∀ i u v, xs[i]? = some u → xs[i + 1]? = some v → ¬ (u ≤ p.x ∧ p.x < v)) :
    interpolate g p = .ok none := by
  have : negative (fraction g.xs p.x) = true := by
    rw [hxs, fraction]
    rcases search_cases p.x xs 0 with h1 | ⟨i, u, v, h0, h1, h2, h3, -⟩
    · rw [h1]; decide +kernel
    · exact absurd ⟨h2, h3⟩ (h i u v h0 h1)
  unfold interpolate
  rw [this]; rfl

/-- The same for the rows. -/
theorem listed_outside_rows {g : Samples} {ys : List ℚ} (hys : g.ys = .listed ys) (p : Pt) (h : ∀ i u v, ys[i]? = some u → ys[i + 1]? = some v → ¬ (u ≤ p.y ∧ p.y < v)) :
    interpolate g p = .ok none := by
  have : negative (fraction g.ys p.y) = true := by
    rw [hys, fraction]
    rcases search_cases p.y ys 0 with h1 | ⟨i, u, v, h0, h1, h2, h3, -⟩
    · rw [h1]; decide +kernel
    · exact absurd ⟨h2, h3⟩ (h i u v h0 h1)
  unfold interpolate
  rw [this, Bool.or_true]; rfl

/-- Between the first coordinate and the last one, without the last one. -/
def Axis.Inside (a : Axis) (x : ℚ) : Prop := (∃ u, a.coord 0 = some u ∧ u ≤ x) ∧ ∃ k w, a.coord k = some w ∧ x < w

theorem cell_of_inside {a : Axis} {x : ℚ} (h : a.Inside x) : ∃ i u v, a.coord i = some u ∧ a.coord (i + 1) = some v ∧ u ≤ x ∧ x < v := by
  obtain ⟨⟨u, hu, hux⟩, k, w, hk, hxw⟩ := h
  induction k generalizing w with
  | zero => rw [hu] at hk; cases hk; exact absurd hxw (not_lt.2 hux)
  | succ k ih =>
    have := coord_lt hk
    obtain ⟨w', hw'⟩ := coord_some (a := a) (i := k) (by omega)
    by_cases hc : x < w'
    · exact ih w' hw' hc
    · exact ⟨k, w', w, hw', hk, not_lt.1 hc, hxw⟩

theorem inside_of_cell {a : Axis} (ha : a.Rising) {i : Nat} {u v x : ℚ} (hu : a.coord i = some u) (hv : a.coord (i + 1) = some v) (h0 : u ≤ x) (h1 : x < v) :
    a.Inside x := by
  have := coord_lt hu
  obtain ⟨w, hw⟩ := coord_some (a := a) (i := 0) (by omega)
  exact ⟨⟨w, hw, le_trans (coord_mono ha (Nat.zero_le _) hw hu) h0⟩, _, _, hv, h1⟩

/-- **C64.** With coordinates given one by one there is a value exactly from the first coordinates on and before the last ones; it is never undefined. -/
theorem listed_exact {g : Samples} (hg : g.Proper) {xs ys : List ℚ} (hxs : g.xs = .listed xs) (hys : g.ys = .listed ys) (p : Pt) :
    ∃ r, interpolate g p = .ok r ∧ (r ≠ none ↔ g.xs.Inside p.x ∧ g.ys.Inside p.y) := by
  by_cases h1 : g.xs.Inside p.x
  · by_cases h2 : g.ys.Inside p.y
    · obtain ⟨i, u, v, a1, a2, a3, a4⟩ := cell_of_inside h1
      obtain ⟨j, s, t, b1, b2, b3, b4⟩ := cell_of_inside h2
      obtain ⟨a, b, c, d, -, -, -, -, h⟩ := value_is_bilinear hg (p := p) ⟨a1, a2, a3, a4.le, _, _, a2, a4⟩ ⟨b1, b2, b3, b4.le, _, _, b2, b4⟩
      exact ⟨_, h, by simp [h1, h2]⟩
    · refine ⟨none, listed_outside_rows hys p ?_, by simp [h2]⟩
      intro i u v h3 h4 h5
      exact h2 (inside_of_cell hg.ys (i := i) (by rw [hys]; exact h3) (by rw [hys]; exact h4) h5.1 h5.2)
  · refine ⟨none, listed_outside hxs p ?_, by simp [h1]⟩
    intro i u v h3 h4 h5
    exact h1 (inside_of_cell hg.xs (i := i) (by rw [hxs]; exact h3) (by rw [hxs]; exact h4) h5.1 h5.2)

example : (⟨.listed [0, 1, 3], .listed [0, 2], [1, 2, 3, 4, 5, 6]⟩ : Samples).Proper :=
  ⟨by show List.Pairwise _ _; decide, by show List.Pairwise _ _; decide, rfl, by decide, by decide⟩

theorem regular_place {o c x : ℚ} {n : Nat} (hc : 0 < c) (hfar : (x - o) / c < missing) :
    (x ≤ o - c → negative (fraction (.regular o c n) x) = true) ∧
    (o - c < x → negative (fraction (.regular o c n) x) = false ∧
      ∃ i s, toIndex (fraction (.regular o c n) x) = .ok (i, s) ∧ i < missing ∧ (i + 1 < n ↔ x < o + ((n : ℚ) - 1) * c ∧ 2 ≤ n) ∧
        (o + i * c ≤ x ∧ x < o + (i + 1) * c ∨ i = 0 ∧ x < o) ∧ s = (x - (o + i * c)) / c) := by
  rw [fraction, if_neg hc.ne']
  have hiff : ∀ k : ℤ, ((k : ℚ) ≤ (x - o) / c ↔ o + k * c ≤ x) := fun k => by rw [le_div_iff₀ hc]; constructor <;> intro h <;> linarith
  have hlt : ∀ k : ℤ, ((x - o) / c < k ↔ x < o + k * c) := fun k => by rw [div_lt_iff₀ hc]; constructor <;> intro h <;> linarith
  constructor
  · intro hx
    rw [negative, decide_eq_true_eq]
    have hq : (x - o) / c ≤ -1 := by rw [div_le_iff₀ hc]; linarith
    unfold whole
    rw [if_neg (by linarith)]
    have : ⌈(x - o) / c⌉ ≤ -1 := by rw [Int.ceil_le]; push_cast; exact hq
    omega
  · intro hx
    have hq : -1 < (x - o) / c := by rw [lt_div_iff₀ hc]; linarith
    by_cases h0 : 0 ≤ (x - o) / c
    · have hx0 : o ≤ x := by have := (hiff 0).1 (by simpa using h0); simpa using this
      have hf0 : 0 ≤ ⌊(x - o) / c⌋ := Int.floor_nonneg.2 h0
      obtain ⟨i, hi⟩ := Int.eq_ofNat_of_zero_le hf0
      have hw : whole ((x - o) / c) = i := by unfold whole; rw [if_pos h0, hi]
      have g1 : (i : ℚ) ≤ (x - o) / c := by have := Int.floor_le ((x - o) / c); rw [hi] at this; exact_mod_cast this
      have g2 : (x - o) / c < (i : ℚ) + 1 := by have := Int.lt_floor_add_one ((x - o) / c); rw [hi] at this; exact_mod_cast this
      have him : i < missing := by
        have : (i : ℚ) < missing := lt_of_le_of_lt g1 hfar
        exact_mod_cast this
      refine ⟨by rw [negative, hw]; simp, i, (x - o) / c - i, ?_, him, ?_, .inl ⟨?_, ?_⟩, ?_⟩
      · rw [toIndex, hw, if_pos (by exact_mod_cast him.le)]; simp
      · constructor
        · intro hn
          refine ⟨?_, by omega⟩
          have := (hlt ((i : ℤ) + 1)).1 (by push_cast; exact g2)
          push_cast at this
          have hn' : (i : ℚ) + 1 ≤ n - 1 := by
            have : ((i + 1 + 1 : ℕ) : ℚ) ≤ n := by exact_mod_cast hn
            push_cast at this; linarith
          have := mul_le_mul_of_nonneg_right hn' hc.le
          linarith
        · rintro ⟨hn, h2⟩
          have := (hlt ((n : ℤ) - 1)).2 (by push_cast; exact hn)
          push_cast at this
          have h3 : (i : ℚ) < n - 1 := lt_of_le_of_lt g1 this
          have h4 : ((i + 1 : ℕ) : ℚ) < n := by push_cast; linarith
          exact_mod_cast h4
      · have := (hiff i).1 (by exact_mod_cast g1); exact_mod_cast this
      · have := (hlt ((i : ℤ) + 1)).1 (by push_cast; exact g2); push_cast at this; exact this
      · field_simp; ring
    · have hw : whole ((x - o) / c) = 0 := by
        unfold whole
        rw [if_neg h0, Int.ceil_eq_iff]
        push_cast
        exact ⟨by linarith, by linarith⟩
      have hx0 : x < o := by
        by_contra hc'
        exact h0 (div_nonneg (by linarith) hc.le)
      refine ⟨by rw [negative, hw]; simp, 0, (x - o) / c, ?_, by decide, ?_, .inr ⟨rfl, hx0⟩, ?_⟩
      · rw [toIndex, hw, if_pos (by decide)]; simp
      · constructor
        · intro hn
          refine ⟨?_, by omega⟩
          have : (0 : ℚ) ≤ (n : ℚ) - 1 := by
            have : ((1 : ℕ) : ℚ) ≤ n := by exact_mod_cast (by omega : 1 ≤ n)
            push_cast at this; linarith
          have := mul_nonneg this hc.le
          linarith
        · rintro ⟨-, h⟩; omega
      · simp

/-- **C64.** With a constant cell size there is a value exactly from one cell before the origin on and before the last column and row (not too far away for an
index).  It ought to be from the origin on, see `extrapolated_before_origin`. -/
theorem regular_exact_partial {ox oy cx cy : ℚ} {nx ny : Nat} {vs : List ℚ} (hg : (⟨.regular ox cx nx, .regular oy cy ny, vs⟩ : Samples).Proper) (p : Pt)
    (h1 : (p.x - ox) / cx < missing) (h2 : (p.y - oy) / cy < missing) :
    ∃ r, interpolate ⟨.regular ox cx nx, .regular oy cy ny, vs⟩ p = .ok r ∧
      (r ≠ none ↔ (ox - cx < p.x ∧ p.x < ox + ((nx : ℚ) - 1) * cx ∧ 2 ≤ nx) ∧ oy - cy < p.y ∧ p.y < oy + ((ny : ℚ) - 1) * cy ∧ 2 ≤ ny) := by
  obtain ⟨ax, bx⟩ := regular_place (n := nx) (show 0 < cx from hg.xs) h1
  obtain ⟨ay, by'⟩ := regular_place (n := ny) (show 0 < cy from hg.ys) h2
  unfold interpolate
  rcases le_or_gt p.x (ox - cx) with hx | hx
  · simp only [ax hx, Bool.true_or, if_true]
    exact ⟨none, rfl, by simp [not_lt.2 hx]⟩
  · rcases le_or_gt p.y (oy - cy) with hy | hy
    · simp only [ay hy, Bool.or_true, if_true]
      exact ⟨none, rfl, by simp [not_lt.2 hy]⟩
    · obtain ⟨n1, i, s, t1, l1, e1, -, -⟩ := bx hx
      obtain ⟨n2, j, t, t2, l2, e2, -, -⟩ := by' hy
      simp only [n1, n2, t1, t2, Bool.or_self, Bool.false_eq_true, if_false, Res.ok_bind]
      unfold within
      have hi : next i = i + 1 := by unfold next; exact Nat.mod_eq_of_lt (by omega)
      have hj : next j = j + 1 := by unfold next; exact Nat.mod_eq_of_lt (by omega)
      simp only
      by_cases hout : next i ≥ nx ∨ next j ≥ ny
      · rw [if_pos (show next i ≥ Axis.num (.regular ox cx nx) ∨ next j ≥ Axis.num (.regular oy cy ny) from hout)]
        refine ⟨none, rfl, ?_⟩
        simp only [ne_eq, not_true_eq_false, false_iff, not_and]
        intro h3 h4 h5
        have u1 := e1.2 ⟨h3.2.1, h3.2.2⟩
        intro h6
        have u2 := e2.2 ⟨h5, h6⟩
        omega
      · rw [if_neg (show ¬ (next i ≥ Axis.num (.regular ox cx nx) ∨ next j ≥ Axis.num (.regular oy cy ny)) from hout)]
        have k1 : i + 1 < nx := by omega
        have k2 : j + 1 < ny := by omega
        obtain ⟨a, ha⟩ := at_some hg (i := i) (j := j) (by show i < nx; omega) (by show j < ny; omega)
        obtain ⟨b, hb⟩ := at_some hg (i := i + 1) (j := j) (by show i + 1 < nx; omega) (by show j < ny; omega)
        obtain ⟨c, hc⟩ := at_some hg (i := i) (j := j + 1) (by show i < nx; omega) (by show j + 1 < ny; omega)
        obtain ⟨d, hd⟩ := at_some hg (i := i + 1) (j := j + 1) (by show i + 1 < nx; omega) (by show j + 1 < ny; omega)
        unfold blend
        rw [hi, hj, valueAt_of ha, valueAt_of hb, valueAt_of hc, valueAt_of hd]
        simp only [Res.ok_bind]
        refine ⟨_, rfl, ?_⟩
        have v1 := e1.1 k1
        have v2 := e2.1 k2
        simp [hx, hy, v1, v2]

example : (⟨.regular 0 1 3, .regular 5 2 2, [1, 2, 3, 4, 5, 6]⟩ : Samples).Proper ∧ ((7 / 2 - 0) / 1 : ℚ) < missing :=
  ⟨⟨by show (0 : ℚ) < 1; norm_num, by show (0 : ℚ) < 2; norm_num, rfl, by decide, by decide⟩, by decide +kernel⟩

/-! ## Both ways of giving coordinates -/

/-- **C64.** Coordinates with a constant distance give the same values inside whether they are passed one by one or by origin and cell size. -/
theorem either_way_partial {a : Given} (hc : 0 < a.size) {xs ys : List ℚ} (hx : a.coordsX = some xs) (hy : a.coordsY = some ys)
    (lx : xs.length = a.numX) (ly : ys.length = a.numY) (ex : ∀ (i : Nat) x, xs[i]? = some x → x = a.originX + i * a.size)
    (ey : ∀ (i : Nat) y, ys[i]? = some y → y = a.originY + i * a.size) (hv : a.values.length = a.numX * a.numY)
    (fx : a.numX ≤ missing) (fy : a.numY ≤ missing) {p : Pt}
    (px : a.originX ≤ p.x ∧ p.x < a.originX + ((a.numX : ℚ) - 1) * a.size) (py : a.originY ≤ p.y ∧ p.y < a.originY + ((a.numY : ℚ) - 1) * a.size) :
    ∃ v, interpolate (samplesOf a) p = .ok (some v) ∧ interpolate (samplesOf { a with coordsX := none }) p = .ok (some v) := by
  have hs : samplesOf a = ⟨.listed xs, .listed ys, a.values⟩ := by
    unfold samplesOf; rw [hx, hy]
    show Samples.mk _ _ _ = _
    rw [← lx, ← ly, List.take_length, List.take_length]
  have hr : samplesOf { a with coordsX := none } = ⟨.regular a.originX a.size a.numX, .regular a.originY a.size a.numY, a.values⟩ := rfl
  have rise : ∀ (l : List ℚ) (o : ℚ), (∀ (i : Nat) x, l[i]? = some x → x = o + i * a.size) → l.Pairwise (· < ·) := by
    intro l o h
    rw [List.pairwise_iff_getElem]
    intro i j hi hj hij
    rw [h i _ (List.getElem?_eq_getElem hi), h j _ (List.getElem?_eq_getElem hj)]
    have : (i : ℚ) < j := by exact_mod_cast hij
    have := mul_lt_mul_of_pos_right this hc
    linarith
  have same : ∀ (l : List ℚ) (o : ℚ) (i : Nat), (∀ (i : Nat) x, l[i]? = some x → x = o + i * a.size) →
      (Axis.listed l).coord i = (Axis.regular o a.size l.length).coord i := by
    intro l o i h
    simp only [Axis.coord]
    by_cases hi : i < l.length
    · rw [if_pos hi, List.getElem?_eq_getElem hi, ← h i _ (List.getElem?_eq_getElem hi)]
    · rw [if_neg hi, List.getElem?_eq_none (by omega)]
  have inside : ∀ (o : ℚ) (n : Nat) (x : ℚ), o ≤ x → x < o + ((n : ℚ) - 1) * a.size → (Axis.regular o a.size n).Inside x := by
    intro o n x h0 h1
    have hn : 1 < n := by
      by_contra hcon
      have : (n : ℚ) ≤ 1 := by exact_mod_cast (not_lt.1 hcon)
      have := mul_nonneg (sub_nonneg.2 this) hc.le
      nlinarith
    refine ⟨⟨o, by simp only [Axis.coord]; rw [if_pos (by omega)]; simp, h0⟩, n - 1, o + ((n : ℚ) - 1) * a.size, ?_, h1⟩
    simp only [Axis.coord]
    rw [if_pos (by omega), Nat.cast_sub (by omega)]
    simp
  have pr : (⟨.regular a.originX a.size a.numX, .regular a.originY a.size a.numY, a.values⟩ : Samples).Proper := ⟨hc, hc, hv, fx, fy⟩
  have pl : (⟨.listed xs, .listed ys, a.values⟩ : Samples).Proper :=
    ⟨rise xs _ ex, rise ys _ ey, by show _ = xs.length * ys.length; rw [lx, ly]; exact hv, by show xs.length ≤ _; omega, by show ys.length ≤ _; omega⟩
  obtain ⟨i, u, v, a1, a2, a3, a4⟩ := cell_of_inside (inside _ _ _ px.1 px.2)
  obtain ⟨j, s, t, b1, b2, b3, b4⟩ := cell_of_inside (inside _ _ _ py.1 py.2)
  have a1' : (Axis.listed xs).coord i = some u := by rw [same xs _ i ex, lx]; exact a1
  have a2' : (Axis.listed xs).coord (i + 1) = some v := by rw [same xs _ (i + 1) ex, lx]; exact a2
  have b1' : (Axis.listed ys).coord j = some s := by rw [same ys _ j ey, ly]; exact b1
  have b2' : (Axis.listed ys).coord (j + 1) = some t := by rw [same ys _ (j + 1) ey, ly]; exact b2
  obtain ⟨c, d, e, f, h1, h2, h3, h4, h5⟩ := value_is_bilinear pr (p := p) ⟨a1, a2, a3, a4.le, _, _, a2, a4⟩ ⟨b1, b2, b3, b4.le, _, _, b2, b4⟩
  obtain ⟨c', d', e', f', k1, k2, k3, k4, k5⟩ := value_is_bilinear pl (p := p) ⟨a1', a2', a3, a4.le, _, _, a2', a4⟩ ⟨b1', b2', b3, b4.le, _, _, b2', b4⟩
  have at_eq : ∀ k l, (⟨.listed xs, .listed ys, a.values⟩ : Samples).at k l =
      (⟨.regular a.originX a.size a.numX, .regular a.originY a.size a.numY, a.values⟩ : Samples).at k l := by
    intro k l
    unfold Samples.at
    show a.values[l * xs.length + k]? = a.values[l * a.numX + k]?
    rw [lx]
  rw [at_eq, h1] at k1
  rw [at_eq, h2] at k2
  rw [at_eq, h3] at k3
  rw [at_eq, h4] at k4
  cases k1; cases k2; cases k3; cases k4
  exact ⟨_, by rw [hs]; exact k5, by rw [hr]; exact h5⟩

example : interpolate (samplesOf ⟨3, 2, 0, 0, 2, some [0, 2, 4], some [0, 2], [1, 2, 3, 4, 5, 6]⟩) ⟨3, 1⟩ = .ok (some 4) := by decide +kernel

/-! ## The results of a mesh -/

theorem interpolateAll_get (g : Samples) : ∀ (l : List Pt), (∀ p ∈ l, ∃ r, interpolate g p = .ok r) →
    ∃ vs, interpolateAll g l = .ok vs ∧ vs.length = l.length ∧
      ∀ (i : Nat) p, l[i]? = some p → ∃ r, interpolate g p = .ok r ∧ vs[i]? = some (number r)
  | [], _ => ⟨[], rfl, rfl, by simp⟩
  | p :: l, h => by
    obtain ⟨r, hr⟩ := h p List.mem_cons_self
    obtain ⟨vs, h1, h2, h3⟩ := interpolateAll_get g l (fun q hq => h q (List.mem_cons_of_mem _ hq))
    refine ⟨number r :: vs, by rw [interpolateAll, hr, Res.ok_bind, h1, Res.ok_bind], by simp [h2], ?_⟩
    intro i q hi
    cases i with
    | zero => simp at hi; subst hi; exact ⟨r, hr, rfl⟩
    | succ i => exact h3 i q (by simpa using hi)

theorem means_get (ns : List ℚ) : ∀ (l : List Edge), (∀ e ∈ l, e.1 < ns.length ∧ e.2 < ns.length) →
    ∃ vs, means ns l = .ok vs ∧ vs.length = l.length ∧
      ∀ (i : Nat) e, l[i]? = some e → ∃ a b, ns[e.1]? = some a ∧ ns[e.2]? = some b ∧ vs[i]? = some ((a + b) / 2)
  | [], _ => ⟨[], rfl, rfl, by simp⟩
  | e :: l, h => by
    obtain ⟨h1, h2⟩ := h e List.mem_cons_self
    obtain ⟨vs, h3, h4, h5⟩ := means_get ns l (fun q hq => h q (List.mem_cons_of_mem _ hq))
    refine ⟨(1 / 2) * (ns[e.1] + ns[e.2]) :: vs, by rw [means, vget_ok h1, Res.ok_bind, vget_ok h2, Res.ok_bind, h3, Res.ok_bind], by simp [h4], ?_⟩
    intro i q hi
    cases i with
    | zero =>
      simp at hi; subst hi
      exact ⟨_, _, List.getElem?_eq_getElem h1, List.getElem?_eq_getElem h2, by simp only [List.getElem?_cons_zero]; congr 1; ring⟩
    | succ i => exact h5 i q (by simpa using hi)

theorem means_ub (ns : List ℚ) : ∀ (l : List Edge), (∃ e ∈ l, ns.length ≤ e.1 ∨ ns.length ≤ e.2) → means ns l = .ub
  | [], h => by simp at h
  | e :: l, h => by
    rw [means]
    by_cases h1 : e.1 < ns.length
    · rw [vget_ok h1, Res.ok_bind]
      by_cases h2 : e.2 < ns.length
      · rw [vget_ok h2, Res.ok_bind]
        obtain ⟨q, hq, hlt⟩ := h
        rcases List.mem_cons.1 hq with rfl | hq
        · omega
        · rw [means_ub ns l ⟨q, hq, hlt⟩]; rfl
      · simp [vget, h2]
    · simp [vget, h1]

/-- **C64.** On a mesh without deleted edges every node and every face has the value at its place, and every edge the mean of its two nodes (a missing
value counts as -999). -/
theorem results_exact_partial {g : Samples} {m : Mesh Pt} {cs : List Pt} (hn : ∀ p ∈ m.nodes.map place, ∃ r, interpolate g p = .ok r)
    (hc : ∀ p ∈ cs, ∃ r, interpolate g p = .ok r) (he : ∀ e ∈ m.edges, e.1 < m.nodes.length ∧ e.2 < m.nodes.length) :
    ∃ R, compute g m cs = .ok R ∧ R.nodes.length = m.nodes.length ∧ R.edges.length = m.edges.length ∧ R.faces.length = cs.length ∧
      (∀ (i : Nat) p, m.nodes[i]? = some p → ∃ r, interpolate g (place p) = .ok r ∧ R.nodes[i]? = some (number r)) ∧
      (∀ (i : Nat) p, cs[i]? = some p → ∃ r, interpolate g p = .ok r ∧ R.faces[i]? = some (number r)) ∧
      ∀ (i : Nat) e, m.edges[i]? = some e → ∃ a b, R.nodes[e.1]? = some a ∧ R.nodes[e.2]? = some b ∧ R.edges[i]? = some ((a + b) / 2) := by
  obtain ⟨ns, a1, a2, a3⟩ := interpolateAll_get g _ hn
  obtain ⟨fs, b1, b2, b3⟩ := interpolateAll_get g _ hc
  rw [List.length_map] at a2
  obtain ⟨es, c1, c2, c3⟩ := means_get ns m.edges (by rw [a2]; exact he)
  refine ⟨⟨ns, es, fs⟩, by rw [compute, a1, Res.ok_bind, c1, Res.ok_bind, b1, Res.ok_bind], a2, c2, b2, ?_, b3, c3⟩
  intro i p hi
  exact a3 i (place p) (by rw [List.getElem?_map, hi]; rfl)

/-- A mesh with a deleted edge: nodes that do not exist are read. -/
theorem deleted_edge_undefined {g : Samples} {m : Mesh Pt} {cs : List Pt} (hn : ∀ p ∈ m.nodes.map place, ∃ r, interpolate g p = .ok r)
    (hm : m.nodes.length ≤ missing) (he : noEdge ∈ m.edges) : compute g m cs = .ub := by
  obtain ⟨ns, a1, a2, -⟩ := interpolateAll_get g _ hn
  rw [List.length_map] at a2
  rw [compute, a1, Res.ok_bind, means_ub ns m.edges ⟨noEdge, he, .inl (by rw [a2]; exact hm)⟩]
  rfl

end Verif.Gridded
