import Verif.Globe.Sphere
/-!
# The last row is reached
-/
namespace Verif.Globe

theorem degree_ninety : degree * 90 = Real.pi / 2 := by unfold degree; ring

/-- Newton's method approaches the height from above. -/
theorem newton_above {cur lon : ℝ} (h0 : 0 ≤ cur) (hl : 0 < lon) : ∀ {k : Nat} {d : ℝ}, 0 < d → cur + 1 / 2 * d < 90 →
    lon * Real.cos (degree * (cur + 1 / 2 * d)) ≤ d →
    lon * Real.cos (degree * (cur + 1 / 2 * newton degree Real.cos Real.sqrt cur lon k d)) ≤ newton degree Real.cos Real.sqrt cur lon k d := by
  intro k
  induction k with
  | zero => intro d _ _ h; exact h
  | succ k ih =>
    intro d hd ht hf
    have hr := degree_pos
    have hpi := Real.pi_pos
    obtain ⟨φ, hφ⟩ : ∃ φ, φ = degree * (cur + 1 / 2 * d) := ⟨_, rfl⟩
    have hφ0 : 0 ≤ φ := by rw [hφ]; positivity
    have hφ1 : φ < Real.pi / 2 := by
      rw [hφ, ← degree_ninety]
      exact mul_lt_mul_of_pos_left ht hr
    have hcos : 0 < Real.cos φ := Real.cos_pos_of_mem_Ioo ⟨by linarith, hφ1⟩
    have hsin : 0 ≤ Real.sin φ := Real.sin_nonneg_of_nonneg_of_le_pi hφ0 (by linarith)
    have hw : Real.sqrt (1 - Real.cos φ * Real.cos φ) = Real.sin φ := by
      rw [show 1 - Real.cos φ * Real.cos φ = Real.sin φ ^ 2 by nlinarith [Real.sin_sq_add_cos_sq φ], Real.sqrt_sq hsin]
    simp only [newton]
    rw [← hφ] at hf ⊢
    rw [hw]
    obtain ⟨a, ha⟩ : ∃ a, a = (d - lon * Real.cos φ) / (1 + 1 / 2 * degree * lon * Real.sin φ) := ⟨_, rfl⟩
    rw [← ha]
    have hdf0 : 0 < 1 + 1 / 2 * degree * lon * Real.sin φ := by positivity
    have hmul : a * (1 + 1 / 2 * degree * lon * Real.sin φ) = d - lon * Real.cos φ := by rw [ha, div_mul_cancel₀ _ hdf0.ne']
    have ha0 : 0 ≤ a := by rw [ha]; exact div_nonneg (by linarith) hdf0.le
    have hpos : 0 < d - a := by
      have h1 : 0 < lon * Real.cos φ := mul_pos hl hcos
      have h2 : 0 ≤ d * (1 / 2 * degree * lon * Real.sin φ) := by positivity
      rw [sub_pos, ha, div_lt_iff₀ hdf0]
      linarith
    have hnew : lon * Real.cos (degree * (cur + 1 / 2 * (d - a))) ≤ d - a := by
      have e : degree * (cur + 1 / 2 * (d - a)) = φ - 1 / 2 * degree * a := by rw [hφ]; ring
      rw [e, Real.cos_sub]
      have hh : 0 ≤ 1 / 2 * degree * a := by positivity
      have s1 := Real.sin_le hh
      have c1 := Real.cos_le_one (1 / 2 * degree * a)
      have p1 : Real.cos φ * Real.cos (1 / 2 * degree * a) ≤ Real.cos φ := by nlinarith
      have p2 : Real.sin φ * Real.sin (1 / 2 * degree * a) ≤ Real.sin φ * (1 / 2 * degree * a) := mul_le_mul_of_nonneg_left s1 hsin
      have p3 := mul_le_mul_of_nonneg_left (add_le_add p1 p2) hl.le
      calc _ ≤ lon * (Real.cos φ + Real.sin φ * (1 / 2 * degree * a)) := p3
        _ = d - a := by linear_combination hmul
    split
    · exact hnew
    · exact ih hpos (by linarith) hnew

theorem start_below {cur lon : ℝ} (h9 : cur < 90) (hl : 0 < lon) (hl2 : lon ≤ 114) (h0 : 0 ≤ cur) :
    0 < lon * Real.cos (degree * cur) ∧ cur + 1 / 2 * (lon * Real.cos (degree * cur)) < 90 := by
  have hr := degree_pos
  have e : Real.cos (degree * cur) = Real.sin (degree * (90 - cur)) := by
    rw [← Real.cos_pi_div_two_sub]
    congr 1
    unfold degree
    ring
  have hx : 0 < degree * (90 - cur) := mul_pos hr (by linarith)
  have hs1 : Real.sin (degree * (90 - cur)) < degree * (90 - cur) := Real.sin_lt hx
  have hs0 : 0 < Real.sin (degree * (90 - cur)) := by
    apply Real.sin_pos_of_pos_of_lt_pi hx
    have : degree * (90 - cur) ≤ degree * 90 := mul_le_mul_of_nonneg_left (by linarith) hr.le
    have := degree_ninety
    have := Real.pi_pos
    linarith
  rw [e]
  refine ⟨mul_pos hl hs0, ?_⟩
  have hd : degree < 3.1416 / 180 := by
    unfold degree
    have := Real.pi_lt_d4
    linarith
  have h1 : lon * Real.sin (degree * (90 - cur)) ≤ 114 * (degree * (90 - cur)) := mul_le_mul hl2 hs1.le hs0.le (by norm_num : (0 : ℝ) ≤ 114)
  have h2 : degree * (90 - cur) ≤ 3.1416 / 180 * (90 - cur) := mul_le_mul_of_nonneg_right hd.le (by linarith)
  have h3 : 0 < 90 - cur := by linarith
  nlinarith

/-- The height is at least the width halfway up. -/
theorem trueDelta_ge {cur lon : ℝ} (h0 : 0 ≤ cur) (h9 : cur < 90) (hl : 0 < lon) (hl2 : lon ≤ 114) :
    lon * Real.cos (degree * (cur + 1 / 2 * trueDelta cur lon)) ≤ trueDelta cur lon := by
  obtain ⟨s1, s2⟩ := start_below h9 hl hl2 h0
  have hr := degree_pos
  refine newton_above h0 hl s1 s2 ?_
  apply mul_le_mul_of_nonneg_left _ hl.le
  apply Real.cos_le_cos_of_nonneg_of_le_pi
  · positivity
  · have := mul_lt_mul_of_pos_left s2 hr
    rw [degree_ninety] at this
    linarith [Real.pi_pos]
  · apply mul_le_mul_of_nonneg_left _ hr.le
    linarith

/-- Rows as wide as 60 degrees are never widened. -/
theorem wide_not_short {cur lon : ℝ} (h0 : 0 ≤ cur) (h9 : cur < 90) (hl : 60 ≤ lon) (hl2 : lon ≤ 114) (hc : ¬ cur + 3 / 2 * trueDelta cur lon > 90) :
    short degree (trueDelta cur lon) = false := by
  unfold short
  rw [decide_eq_false_iff_not]
  intro hs
  have hge := trueDelta_ge h0 h9 (by linarith) hl2
  have hpos := trueDelta_pos h0 h9 (by linarith) hl2
  generalize trueDelta cur lon = d at *
  have hr := degree_pos
  have hpi := Real.pi_gt_d4
  have hpi2 := Real.pi_lt_d4
  have hdeg : degree = Real.pi / 180 := rfl
  -- two thirds of the distance to the pole
  obtain ⟨x, hx⟩ : ∃ x, x = degree * (2 / 3 * (90 - cur)) := ⟨_, rfl⟩
  have hx0 : 0 < x := by rw [hx]; exact mul_pos hr (by linarith)
  have hx1 : x ≤ Real.pi / 3 := by
    rw [hx, hdeg]
    nlinarith
  have hsx0 : 0 ≤ Real.sin x := Real.sin_nonneg_of_nonneg_of_le_pi hx0.le (by linarith)
  have hcs : Real.sin x ≤ Real.cos (degree * (cur + 1 / 2 * d)) := by
    rw [← Real.cos_pi_div_two_sub]
    have e : Real.pi / 2 - x = degree * (cur + 1 / 2 * (2 / 3 * (90 - cur))) := by rw [hx, ← degree_ninety]; ring
    rw [e]
    apply Real.cos_le_cos_of_nonneg_of_le_pi
    · positivity
    · rw [← e]; linarith
    · apply mul_le_mul_of_nonneg_left _ hr.le
      linarith
  -- in radians
  have hd : lon * Real.sin x ≤ d := (mul_le_mul_of_nonneg_left hcs (by linarith)).trans hge
  have h60 : 60 * Real.sin x ≤ d := (mul_le_mul_of_nonneg_right hl hsx0).trans hd
  have hrd : Real.pi / 3 * Real.sin x ≤ degree * d := by
    have := mul_le_mul_of_nonneg_left h60 hr.le
    rw [hdeg] at this ⊢
    linarith
  have hrd2 : degree * d ≤ x := by
    rw [hx]
    apply mul_le_mul_of_nonneg_left _ hr.le
    linarith
  have heta : degree * d < 1 / 200 := by
    have : d * degree * 6378137 < 30000 := hs
    nlinarith
  have hj : 2 / Real.pi * x ≤ Real.sin x := Real.mul_le_sin hx0.le (by linarith)
  have hx2 : x < 1 / 100 := by
    have : Real.pi / 3 * (2 / Real.pi * x) ≤ Real.pi / 3 * Real.sin x := mul_le_mul_of_nonneg_left hj (by linarith)
    have e : Real.pi / 3 * (2 / Real.pi * x) = 2 / 3 * x := by
      field_simp
    linarith
  have hcube := Real.sin_gt_sub_cube hx0
  have h1 : Real.pi / 3 * (x - x ^ 3 / 6) < Real.pi / 3 * Real.sin x := mul_lt_mul_of_pos_left hcube (by linarith)
  have h2 : x ^ 3 ≤ x * (1 / 10000) := by
    have : x ^ 2 ≤ 1 / 10000 := by nlinarith
    calc x ^ 3 = x * x ^ 2 := by ring
      _ ≤ _ := mul_le_mul_of_nonneg_left this hx0.le
  have h3 : Real.pi / 3 * (x - x ^ 3 / 6) ≥ 1.04 * (x * 0.9999) := by
    apply mul_le_mul <;> nlinarith
  linarith

/-- Whether faces are still to have five points is forgotten when one is drawn. -/
theorem drawPlaces_flag {K : Type} [Field K] [LinearOrder K] {r : Row K} : ∀ {js : List Nat}, (drawPlaces r js false).2 = false := by
  intro js
  induction js with
  | nil => rfl
  | cons j js ih =>
    rw [drawPlaces]
    split
    · exact ih
    · exact ih

theorem drawRow_flag {n : Nat} (hn : 0 < n) {r : Row ℝ} (hl : r.lon ≤ 360) : (drawRow n r).2 = false := by
  obtain ⟨m, rfl⟩ : ∃ m, n = m + 1 := ⟨n - 1, by omega⟩
  unfold drawRow
  rw [List.range_succ_eq_map, drawPlaces, if_pos (by push_cast; linarith)]
  exact drawPlaces_flag

/-- What a row looks like that is not the last one. -/
theorem nextRow_cases {s : Cursor ℝ} (hp : s.pent = false) (h0 : 0 ≤ s.cur) (h9 : s.cur < 90) (hl : 0 < s.lon) (hl2 : s.lon ≤ 114)
    (hlast : (nextRow degree trueDelta s).last = false) :
    ((nextRow degree trueDelta s).lon = s.lon ∧ 1 / 4 ≤ (nextRow degree trueDelta s).height) ∨
    ((nextRow degree trueDelta s).lon = 2 * s.lon ∧ s.lon < 60) := by
  by_cases hc : s.cur + 3 / 2 * trueDelta s.cur s.lon > 90
  · unfold nextRow at hlast
    simp only at hlast
    rw [if_pos hc] at hlast
    cases hlast
  · have e := nextRow_before (rad := degree) hc
    by_cases hs : short degree (trueDelta s.cur s.lon) = true
    · right
      constructor
      · rw [e.1]
        unfold widen
        rw [if_pos (by rw [hs, hp]; rfl)]
      · by_contra hge
        rw [wide_not_short h0 h9 (not_lt.1 hge) hl2 hc] at hs
        cases hs
    · left
      have hw : widen degree trueDelta s (trueDelta s.cur s.lon) = (s.lon, trueDelta s.cur s.lon, false) := by
        unfold widen
        rw [if_neg (by simp [hs])]
      constructor
      · rw [e.1, hw]
      · have hge : 1 / 4 ≤ trueDelta s.cur s.lon := by
          unfold short at hs
          rw [decide_eq_true_eq] at hs
          have hs := not_lt.1 hs
          have hpos := trueDelta_pos h0 h9 hl hl2
          have hd : degree < 3.1416 / 180 := by
            unfold degree
            have := Real.pi_lt_d4
            linarith
          have := mul_lt_mul_of_pos_left hd hpos
          linarith
        unfold nextRow
        simp only
        rw [if_neg hc, hw]
        simp only
        rw [if_neg hc]
        exact hge

/-- The rows of a mesh with `q` times a power of two nodes, `q` between 4 and 6: they keep dividing the sphere, and the last one is reached. -/
theorem rows_power {n q : Nat} (hn : 0 < n) (hq4 : 4 ≤ q) (hq6 : q ≤ 6) : ∀ {k j : Nat} {s : Cursor ℝ}, s.pent = false → 0 ≤ s.cur → s.cur < 90 →
    s.lon = 360 / (q * 2 ^ j) → (∀ r ∈ rows degree trueDelta n k s, r.lon ≤ 114 ∧ ∃ i : Nat, r.lon = 360 / (q * 2 ^ i)) ∧
      (90 - s.cur ≤ (k - 1 - j : ℝ) / 4 → ∃ r ∈ rows degree trueDelta n k s, r.last = true) := by
  have hqK : (4 : ℝ) ≤ q := by exact_mod_cast hq4
  have hqK6 : (q : ℝ) ≤ 6 := by exact_mod_cast hq6
  have hbound : ∀ j : Nat, (360 : ℝ) / (q * 2 ^ j) ≤ 90 := by
    intro j
    have h1 : (1 : ℝ) ≤ 2 ^ j := one_le_pow₀ (by norm_num)
    rw [div_le_iff₀ (by positivity)]
    nlinarith
  intro k
  induction k with
  | zero =>
    intro j s _ _ h9 _
    refine ⟨by simp [rows], fun h => ?_⟩
    have : (0 : ℝ) ≤ j := by positivity
    push_cast at h
    linarith
  | succ k ih =>
    intro j s hp h0 h9 hl
    have hl0 : 0 < s.lon := by rw [hl]; positivity
    have hl2 : s.lon ≤ 90 := by rw [hl]; exact hbound j
    have hlon : (nextRow degree trueDelta s).last = true → (nextRow degree trueDelta s).lon = s.lon := by
      intro h
      unfold nextRow at h ⊢
      simp only at h ⊢
      split at h
      · rename_i hc
        rw [if_pos hc]
      · cases h
    simp only [rows]
    by_cases hlast : (nextRow degree trueDelta s).last = true
    · rw [if_pos hlast]
      refine ⟨?_, fun _ => ⟨_, by simp, hlast⟩⟩
      intro r hr
      simp only [List.mem_singleton] at hr
      subst hr
      rw [hlon hlast]
      exact ⟨by linarith, j, hl⟩
    · rw [if_neg hlast]
      have hlast : (nextRow degree trueDelta s).last = false := by simpa using hlast
      -- the width of this row
      obtain ⟨i, hi, hcase⟩ : ∃ i : Nat, (nextRow degree trueDelta s).lon = 360 / (q * 2 ^ i) ∧
          ((i = j ∧ 1 / 4 ≤ (nextRow degree trueDelta s).height) ∨ i + 1 = j) := by
        rcases nextRow_cases hp h0 h9 hl0 (by linarith) hlast with ⟨h1, h2⟩ | ⟨h1, h2⟩
        · exact ⟨j, by rw [h1, hl], Or.inl ⟨rfl, h2⟩⟩
        · cases j with
          | zero =>
            exfalso
            rw [hl] at h2
            have : (60 : ℝ) ≤ 360 / (q * 2 ^ 0) := by
              rw [le_div_iff₀ (by positivity)]
              nlinarith
            linarith
          | succ j =>
            refine ⟨j, ?_, Or.inr rfl⟩
            rw [h1, hl, pow_succ]
            have : (q : ℝ) ≠ 0 := by positivity
            field_simp
      have hle : (nextRow degree trueDelta s).lon ≤ 90 := by rw [hi]; exact hbound i
      have hrow : ∀ r ∈ rows degree trueDelta n 1 s, r.lon ≤ 114 := by
        intro r hr
        simp only [rows, ite_self, List.mem_singleton] at hr
        subst hr
        linarith
      have hh := rows_height h0 h9 hl0 hrow (nextRow degree trueDelta s) (by simp [rows])
      have htop : s.cur + (nextRow degree trueDelta s).height < 90 := by
        unfold nextRow at hlast hh ⊢
        simp only at hlast hh ⊢
        split at hlast
        · cases hlast
        · rename_i hc
          rw [if_neg hc] at hh ⊢
          simp only at hh ⊢
          split
          · linarith
          · rename_i hd
            rw [if_neg hd] at hh
            linarith
      obtain ⟨i1, i2⟩ := ih (j := i) (s := ⟨(nextRow degree trueDelta s).cur + (nextRow degree trueDelta s).height, (nextRow degree trueDelta s).lon,
        (drawRow n (nextRow degree trueDelta s)).2⟩) (drawRow_flag hn (by linarith)) (by simp only [nextRow_cur]; linarith)
        (by simp only [nextRow_cur]; exact htop) hi
      refine ⟨?_, ?_⟩
      · intro r hr
        rcases List.mem_cons.1 hr with rfl | hr
        · exact ⟨by linarith, i, hi⟩
        · exact i1 r hr
      · intro hk
        obtain ⟨r, h1, h2⟩ := i2 (by
          simp only [nextRow_cur]
          push_cast at hk
          rcases hcase with ⟨rfl, hge⟩ | rfl
          · linarith
          · push_cast at hk
            linarith)
        exact ⟨r, by simp [h1], h2⟩

end Verif.Globe
