import Mathlib.Analysis.SpecialFunctions.Trigonometric.Bounds
import Mathlib.Analysis.Real.Pi.Bounds
import Mathlib.Analysis.Real.Sqrt
import Verif.Globe.Lemmas
/-!
# The heights of the rows over the real numbers
-/
namespace Verif.Globe

/-- The factor from degrees to radians. -/
noncomputable def degree : ℝ := Real.pi / 180

/-- `DeltaLatitude` over the real numbers. -/
noncomputable def trueDelta : ℝ → ℝ → ℝ := deltaLatitude degree Real.cos Real.sqrt

theorem degree_pos : 0 < degree := by
  unfold degree
  have := Real.pi_pos
  positivity

theorem trueDelta_le {cur lon : ℝ} (hl : 0 ≤ lon) : trueDelta cur lon ≤ lon :=
  deltaLatitude_le degree_pos.le Real.cos_le_one Real.sqrt_nonneg hl

/-- Heights stay positive while half of them ends before the pole. -/
theorem newton_pos {cur lon : ℝ} (h0 : 0 ≤ cur) (hl : 0 < lon) : ∀ {k : Nat} {d : ℝ}, 0 < d → cur + 1 / 2 * d < 90 →
    0 < newton degree Real.cos Real.sqrt cur lon k d := by
  intro k
  induction k with
  | zero => intro d h _; exact h
  | succ k ih =>
    intro d hd ht
    have hr := degree_pos
    have hcos : 0 < Real.cos (degree * (cur + 1 / 2 * d)) := by
      apply Real.cos_pos_of_mem_Ioo
      constructor
      · have : 0 ≤ degree * (cur + 1 / 2 * d) := by positivity
        have := Real.pi_pos
        linarith
      · have : degree * (cur + 1 / 2 * d) < degree * 90 := mul_lt_mul_of_pos_left ht hr
        have e : degree * 90 = Real.pi / 2 := by unfold degree; ring
        linarith
    have hw := Real.sqrt_nonneg (1 - Real.cos (degree * (cur + 1 / 2 * d)) * Real.cos (degree * (cur + 1 / 2 * d)))
    simp only [newton]
    generalize Real.cos (degree * (cur + 1 / 2 * d)) = c at *
    generalize Real.sqrt (1 - c * c) = w at *
    have hdf0 : 0 < 1 + 1 / 2 * degree * lon * w := by positivity
    have hstep : 0 < d - (d - lon * c) / (1 + 1 / 2 * degree * lon * w) := by
      rw [sub_pos, div_lt_iff₀ hdf0]
      have h1 : 0 < lon * c := mul_pos hl hcos
      have h2 : 0 ≤ d * (1 / 2 * degree * lon * w) := by positivity
      linarith
    split
    · exact hstep
    · rename_i ha
      apply ih hstep
      have : (0 : ℝ) < 1 / 10 ^ 14 := by positivity
      linarith [not_lt.1 ha]

theorem trueDelta_pos {cur lon : ℝ} (h0 : 0 ≤ cur) (h9 : cur < 90) (hl : 0 < lon) (hl2 : lon ≤ 114) : 0 < trueDelta cur lon := by
  have hr := degree_pos
  have e : Real.cos (degree * cur) = Real.sin (degree * (90 - cur)) := by
    rw [← Real.cos_pi_div_two_sub]
    congr 1
    unfold degree
    ring
  have hx : 0 < degree * (90 - cur) := mul_pos hr (by linarith)
  have hs1 : Real.sin (degree * (90 - cur)) < degree * (90 - cur) := Real.sin_lt hx
  have hs0 : 0 < Real.sin (degree * (90 - cur)) := by
    apply Real.sin_pos_of_pos_of_lt_pi hx
    have : degree * (90 - cur) ≤ degree * 90 := mul_le_mul_of_nonneg_left (by linarith) hr.le
    have e : degree * 90 = Real.pi / 2 := by unfold degree; ring
    have := Real.pi_pos
    linarith
  unfold trueDelta deltaLatitude
  rw [e]
  apply newton_pos h0 hl (mul_pos hl hs0)
  have hd : degree < 3.1416 / 180 := by
    unfold degree
    have := Real.pi_lt_d4
    linarith
  have h1 : lon * Real.sin (degree * (90 - cur)) ≤ 114 * (degree * (90 - cur)) := by
    have := mul_le_mul hl2 hs1.le hs0.le (by norm_num : (0 : ℝ) ≤ 114)
    exact this
  have h2 : degree * (90 - cur) ≤ 3.1416 / 180 * (90 - cur) := mul_le_mul_of_nonneg_right hd.le (by linarith)
  have h3 : 0 < 90 - cur := by linarith
  nlinarith

theorem rows_height {n : Nat} : ∀ {k : Nat} {s : Cursor ℝ}, 0 ≤ s.cur → s.cur < 90 → 0 < s.lon →
    (∀ r ∈ rows degree trueDelta n k s, r.lon ≤ 114) → ∀ r ∈ rows degree trueDelta n k s, 0 < r.height := by
  intro k
  induction k with
  | zero => intro s _ _ _ _ r h; simp [rows] at h
  | succ k ih =>
    intro s h0 h9 hl hw r h
    simp only [rows] at h hw
    have hw1 := hw (nextRow degree trueDelta s) (by simp)
    have key : 0 < (nextRow degree trueDelta s).height ∧ s.cur + (nextRow degree trueDelta s).height ≤ 90 ∧
        ((nextRow degree trueDelta s).last = false → s.cur + (nextRow degree trueDelta s).height < 90) := by
      unfold nextRow at hw1 ⊢
      simp only at hw1 ⊢
      split
      · refine ⟨by simp only; linarith, by simp, by simp⟩
      · rename_i hc
        rw [if_neg hc] at hw1
        simp only at hw1 ⊢
        have hh : 0 < (widen degree trueDelta s (trueDelta s.cur s.lon)).2.1 := by
          unfold widen at hw1 ⊢
          split
          · rename_i hs
            rw [if_pos hs] at hw1
            exact trueDelta_pos h0 h9 (by linarith) hw1
          · rename_i hs
            rw [if_neg hs] at hw1
            exact trueDelta_pos h0 h9 hl hw1
        split
        · exact ⟨by linarith, by linarith, fun _ => by linarith⟩
        · exact ⟨hh, by linarith, fun _ => by linarith⟩
    rcases List.mem_cons.1 h with rfl | h
    · exact key.1
    · split at h
      · simp at h
      · rename_i hlast
        have hlast : (nextRow degree trueDelta s).last = false := by simpa using hlast
        refine ih (s := ⟨_, _, _⟩) ?_ ?_ ?_ ?_ r h
        · simp only [nextRow_cur]; linarith [key.1]
        · simp only [nextRow_cur]; exact key.2.2 hlast
        · simp only
          rcases nextRow_lon (rad := degree) (delta := trueDelta) (s := s) with q | q <;> rw [q] <;> linarith
        · intro r' hr'
          exact hw r' (by rw [if_neg (by simp [hlast])]; simp [hr'])

/-- The first row is widened when there are many nodes. -/
theorem first_widened {n : Nat} (hn : 1337 ≤ n) :
    (nextRow degree trueDelta (start n)).lon = 2 * (360 / n) ∧ (nextRow degree trueDelta (start n)).last = false := by
  have hnK : (1337 : ℝ) ≤ n := by exact_mod_cast hn
  have hL : (360 : ℝ) / n ≤ 360 / 1337 := div_le_div_of_nonneg_left (by norm_num) (by norm_num) hnK
  have hL0 : (0 : ℝ) ≤ 360 / n := by positivity
  have hd := trueDelta_le (cur := 0) hL0
  have hc : ¬ ((0 : ℝ) + 3 / 2 * trueDelta 0 (360 / n) > 90) := by
    have : (360 : ℝ) / 1337 < 1 := by norm_num
    intro h
    linarith
  have hs : short degree (trueDelta 0 (360 / (n : ℝ))) = true := by
    unfold short
    rw [decide_eq_true_eq]
    have hr := degree_pos
    have hr2 : degree < 3.1416 / 180 := by
      unfold degree
      have := Real.pi_lt_d4
      linarith
    have h1 : trueDelta 0 (360 / (n : ℝ)) * degree ≤ 360 / 1337 * degree := mul_le_mul_of_nonneg_right (hd.trans hL) hr.le
    have h2 : (360 : ℝ) / 1337 * degree ≤ 360 / 1337 * (3.1416 / 180) := mul_le_mul_of_nonneg_left hr2.le (by norm_num)
    have h3 : (360 : ℝ) / 1337 * (3.1416 / 180) * 6378137 < 30000 := by norm_num
    have h4 : trueDelta 0 (360 / (n : ℝ)) * degree * 6378137 ≤ 360 / 1337 * (3.1416 / 180) * 6378137 :=
      mul_le_mul_of_nonneg_right (h1.trans h2) (by norm_num)
    linarith
  have hw : (widen degree trueDelta (start n) (trueDelta 0 (360 / (n : ℝ)))).1 = 2 * (360 / n) := by
    unfold widen
    rw [if_pos (by rw [hs]; rfl)]
    rfl
  obtain ⟨h1, h2⟩ := nextRow_before (rad := degree) (delta := trueDelta) (s := start n) hc
  exact ⟨h1.trans hw, h2⟩

/-! ## One node -/

theorem one_height : trueDelta 0 360 = -360 := by
  have e1 : degree * (0 + 1 / 2 * 360) = Real.pi := by unfold degree; ring
  have e2 : degree * (0 + 1 / 2 * (-360)) = -Real.pi := by unfold degree; ring
  unfold trueDelta deltaLatitude
  rw [mul_zero, Real.cos_zero, mul_one]
  rw [newton, e1, Real.cos_pi]
  have a1 : ((360 : ℝ) - 360 * -1) / (1 + 1 / 2 * degree * 360 * Real.sqrt (1 - -1 * -1)) = 720 := by
    have : (1 : ℝ) - -1 * -1 = 0 := by norm_num
    rw [this, Real.sqrt_zero]
    norm_num
  rw [a1, if_neg (by norm_num)]
  rw [show (360 : ℝ) - 720 = -360 by norm_num, newton, e2, Real.cos_neg, Real.cos_pi]
  have a2 : ((-360 : ℝ) - 360 * -1) / (1 + 1 / 2 * degree * 360 * Real.sqrt (1 - -1 * -1)) = 0 := by norm_num
  rw [a2, if_pos (by norm_num)]
  norm_num

theorem one_rows {k : Nat} {r : Row ℝ} (hr : r ∈ allRows degree trueDelta 1 k) : 720 ≤ r.lon := by
  have hfirst : (nextRow degree trueDelta (start 1)).lon = 720 := by
    have hs : short degree (-360) = true := by
      unfold short
      rw [decide_eq_true_eq]
      have := degree_pos
      linarith
    have h360 : (start 1 : Cursor ℝ) = ⟨0, 360, false⟩ := by unfold start; norm_num
    rw [h360]
    have hc : ¬ ((0 : ℝ) + 3 / 2 * trueDelta 0 360 > 90) := by rw [one_height]; norm_num
    rw [(nextRow_before (rad := degree) (delta := trueDelta) (s := ⟨0, 360, false⟩) hc).1]
    unfold widen
    simp only
    rw [one_height, if_pos (by rw [hs]; rfl)]
    norm_num
  unfold allRows at hr
  cases k with
  | zero => simp [rows] at hr
  | succ k =>
    simp only [rows] at hr
    rcases List.mem_cons.1 hr with rfl | hr
    · rw [hfirst]
    · split at hr
      · simp at hr
      · obtain ⟨i, hi⟩ := rows_lon hr
        rw [hi]
        simp only
        rw [hfirst]
        have : (1 : ℝ) ≤ 2 ^ i := one_le_pow₀ (by norm_num)
        linarith

end Verif.Globe
