import Verif.Rect.Props
import Mathlib.Analysis.Real.Pi.Bounds
import Mathlib.Analysis.SpecialFunctions.Trigonometric.Bounds
/-!
# Lemmas about spherical rectangular grids
-/
namespace Verif.Rect
open Verif.Curvi

section
variable {K : Type} [Field K] [LinearOrder K]

/-- The latitudes of the rows above `lat`. -/
def latitude (t : Trig K) (dy lat : K) : Nat → K
  | 0 => lat
  | k + 1 => nextLatitude t dy (latitude t dy lat k)

theorem latitude_shift (t : Trig K) (dy lat : K) (k : Nat) :
    latitude t dy (nextLatitude t dy lat) k = latitude t dy lat (k + 1) := by
  induction k with
  | zero => rfl
  | succ k ih => simp only [latitude] at ih ⊢; rw [ih]

/-- What the loop over the rows does when all nodes of the row before have one latitude. -/
theorem sphericalRows_ok (t : Trig K) (tol dy lat : K) (numM : Nat) (hM : 0 < numM) : ∀ (k n : Nat) (c : Nat → Nat → Pt K), 1 ≤ n →
    (∀ i j, i < n → (c i j).y = latitude t dy lat i) →
    let r := sphericalRows t tol dy numM k n c
    n ≤ r.2 ∧ r.2 ≤ n + k ∧ (∀ i j, i < r.2 → (r.1 i j).y = latitude t dy lat i) ∧ (∀ i j, (r.1 i j).x = (c i j).x) ∧
      (r.2 < n + k → isEqual tol |latitude t dy lat (r.2 - 1)| 90 = true) ∧
      (∀ i, n ≤ i → i + 1 < r.2 → isEqual tol |latitude t dy lat i| 90 = false) := by
  intro k
  induction k with
  | zero =>
    intro n c hn hc
    simp only [sphericalRows]
    exact ⟨le_refl _, le_refl _, hc, (by intros; trivial), fun h => absurd h (by omega), fun i h1 h2 => absurd h2 (by omega)⟩
  | succ k ih =>
    intro n c hn hc
    simp only [sphericalRows]
    have hrow : ∀ i j, i < n + 1 → (sphericalRow t dy n c i j).y = latitude t dy lat i := by
      intro i j hi
      unfold sphericalRow
      by_cases h : i = n
      · rw [if_pos h]
        simp only
        rw [hc (n - 1) j (by omega), h]
        obtain ⟨p, rfl⟩ : ∃ p, n = p + 1 := ⟨n - 1, by omega⟩
        rfl
      · rw [if_neg h]; exact hc i j (by omega)
    have hx : ∀ i j, (sphericalRow t dy n c i j).x = (c i j).x := by
      intro i j
      unfold sphericalRow
      by_cases h : i = n
      · rw [if_pos h, h]
      · rw [if_neg h]
    have hany : (List.range numM).any (fun m => isEqual tol |(sphericalRow t dy n c n m).y| 90) =
        isEqual tol |latitude t dy lat n| 90 := by
      have e : ∀ m, isEqual tol |(sphericalRow t dy n c n m).y| 90 = isEqual tol |latitude t dy lat n| 90 := by
        intro m; rw [hrow n m (by omega)]
      simp only [e]
      cases isEqual tol |latitude t dy lat n| 90
      · simp
      · simp only [List.any_eq_true, List.mem_range, and_true]
        exact ⟨0, hM⟩
    rw [hany]
    cases hp : isEqual tol |latitude t dy lat n| 90 with
    | true =>
      simp only [if_true]
      refine ⟨by omega, by omega, hrow, hx, fun _ => ?_, fun i h1 h2 => absurd h2 (by omega)⟩
      rw [Nat.add_sub_cancel]; exact hp
    | false =>
      simp only [Bool.false_eq_true, if_false]
      obtain ⟨h1, h2, h3, h4, h5, h6⟩ := ih (n + 1) (sphericalRow t dy n c) (by omega) hrow
      refine ⟨by omega, by omega, h3, fun i j => (h4 i j).trans (hx i j), fun h => h5 (by omega), fun i h7 h8 => ?_⟩
      by_cases h : i = n
      · rw [h]; exact hp
      · exact h6 i (by omega) h8

/-- What the counting loop counts. -/
theorem countRows_spec (t : Trig K) (tol dy maxY : K) : ∀ (k : Nat) (cur : K) (r : Int), countRows t tol dy maxY k cur = .ok r →
    ∃ n : Nat, r = n ∧ (maxY ≤ latitude t dy cur n ∨ (1 ≤ n ∧ isEqual tol |latitude t dy cur n| 90 = true)) ∧
      (∀ i, i < n → latitude t dy cur i < maxY) ∧ (∀ i, 1 ≤ i → i < n → isEqual tol |latitude t dy cur i| 90 = false) := by
  intro k
  induction k with
  | zero => intro cur r h; simp [countRows] at h
  | succ k ih =>
    intro cur r h
    simp only [countRows] at h
    split at h
    · next hlt =>
      split at h
      · next hp =>
        refine ⟨1, (Res.ok.inj h).symm, .inr ⟨le_refl _, hp⟩, fun i hi => ?_, fun i h1 h2 => absurd h2 (by omega)⟩
        have : i = 0 := by omega
        subst this; exact hlt
      · next hp =>
        obtain ⟨s, h1, h2⟩ := Res.bind_eq_ok.1 h
        obtain ⟨n, rfl, h3, h4, h5⟩ := ih _ _ h1
        refine ⟨n + 1, by rw [← Res.ok.inj h2]; push_cast; rfl, ?_, ?_, ?_⟩
        · rw [latitude_shift] at h3
          exact h3.imp id (fun h => ⟨by omega, h.2⟩)
        · intro i hi
          cases i with
          | zero => exact hlt
          | succ i => rw [← latitude_shift]; exact h4 i (by omega)
        · intro i h6 h7
          obtain ⟨j, rfl⟩ : ∃ j, i = j + 1 := ⟨i - 1, by omega⟩
          cases j with
          | zero => simpa [latitude] using hp
          | succ j =>
            rw [← latitude_shift]
            exact h5 (j + 1) (by omega) (by omega)
    · next hlt =>
      exact ⟨0, (Res.ok.inj h).symm, .inl (not_lt.1 hlt), fun i hi => absurd hi (by omega), fun i h1 h2 => absurd h2 (by omega)⟩

end

/-! ### The real latitudes -/

theorem rad_pos : 0 < Real.pi / 180 := by have := Real.pi_pos; positivity

theorem realTrig_zero : realTrig.cos 0 = 1 ∧ realTrig.sin 0 = 0 := by
  constructor <;> simp [realTrig]

/-- Cosine of a latitude as the sine of the distance to the pole. -/
theorem cos_eq_sin (lat : ℝ) : realTrig.cos lat = Real.sin ((90 - lat) * (Real.pi / 180)) := by
  show Real.cos _ = _
  rw [← Real.sin_pi_div_two_sub]
  congr 1; ring

theorem cos_eq_sin' (lat : ℝ) : realTrig.cos lat = Real.sin ((90 + lat) * (Real.pi / 180)) := by
  have : realTrig.cos lat = realTrig.cos (-lat) := by
    show Real.cos _ = Real.cos _
    rw [neg_mul, Real.cos_neg]
  rw [this, cos_eq_sin]
  congr 1; ring

/-- Between 88 degrees south and the pole the cosine is at least the distance to the nearer pole over 90 degrees. -/
theorem cos_lower {lat : ℝ} (h1 : -90 ≤ lat) (h2 : lat ≤ 90) : (90 - |lat|) / 90 ≤ realTrig.cos lat := by
  have hp := Real.pi_pos
  rcases le_total 0 lat with h | h
  · rw [abs_of_nonneg h, cos_eq_sin]
    have := Real.mul_le_sin (x := (90 - lat) * (Real.pi / 180)) (by have := rad_pos; nlinarith) (by
      have : (90 - lat) * (Real.pi / 180) ≤ 90 * (Real.pi / 180) := mul_le_mul_of_nonneg_right (by linarith) rad_pos.le
      linarith)
    have e : 2 / Real.pi * ((90 - lat) * (Real.pi / 180)) = (90 - lat) / 90 := by field_simp; ring
    rwa [e] at this
  · rw [abs_of_nonpos h, cos_eq_sin']
    have := Real.mul_le_sin (x := (90 + lat) * (Real.pi / 180)) (by have := rad_pos; nlinarith) (by
      have : (90 + lat) * (Real.pi / 180) ≤ 90 * (Real.pi / 180) := mul_le_mul_of_nonneg_right (by linarith) rad_pos.le
      linarith)
    have e : 2 / Real.pi * ((90 + lat) * (Real.pi / 180)) = (90 + lat) / 90 := by field_simp; ring
    rw [e] at this
    linarith

theorem cos_le_one (lat : ℝ) : realTrig.cos lat ≤ 1 := Real.cos_le_one _

theorem cos_upper {lat : ℝ} (h : lat ≤ 90) : realTrig.cos lat ≤ (90 - lat) * (Real.pi / 180) := by
  rw [cos_eq_sin]
  exact Real.sin_le (mul_nonneg (by linarith) rad_pos.le)

/-- One step up: strictly higher, not beyond the pole, and by at least the given amount unless it ends on the pole. -/
theorem nextLatitude_bounds {dy lat : ℝ} (h0 : 0 < dy) (h57 : dy ≤ 57) (h1 : -88 ≤ lat) (h2 : lat < 90) :
    lat < nextLatitude realTrig dy lat ∧ nextLatitude realTrig dy lat ≤ 90 ∧
      (nextLatitude realTrig dy lat = 90 ∨ lat + min (dy / 150) (1 / 60) ≤ nextLatitude realTrig dy lat) := by
  have hlow := cos_lower (lat := lat) (by linarith) h2.le
  have hone := cos_le_one lat
  have hup := cos_upper h2.le
  have hpos : 0 < realTrig.cos lat := by
    have : |lat| < 90 := abs_lt.2 ⟨by linarith, h2⟩
    have h3 : 0 < (90 - |lat|) / 90 := by linarith
    linarith
  unfold nextLatitude
  simp only
  generalize realTrig.cos lat = c at *
  have hpi := Real.pi_gt_three
  have hpi2 := Real.pi_lt_d2
  have hd : 0 < dy * c * (c + (1 - c) * (3 / 10)) := by
    have : 0 < c + (1 - c) * (3 / 10) := by nlinarith
    positivity
  have hd2 : dy * c * (c + (1 - c) * (3 / 10)) ≤ 90 - lat := by
    have e1 : dy * c * (c + (1 - c) * (3 / 10)) ≤ dy * c * 1 := by
      apply mul_le_mul_of_nonneg_left _ (by positivity)
      nlinarith
    have e2 : dy * c ≤ 57 * ((90 - lat) * (Real.pi / 180)) := mul_le_mul h57 hup hpos.le (by norm_num)
    have e3 : 57 * ((90 - lat) * (Real.pi / 180)) ≤ 90 - lat := by
      have : 57 * (Real.pi / 180) ≤ 1 := by linarith
      nlinarith
    linarith
  have hd3 : dy * c * (3 / 10) ≤ dy * c * (c + (1 - c) * (3 / 10)) := by
    apply mul_le_mul_of_nonneg_left _ (by positivity)
    nlinarith
  generalize dy * c * (c + (1 - c) * (3 / 10)) = d at *
  by_cases hs : |lat + d| > 88 ∧ d * realTrig.rad * 6378137 < 2000
  · rw [if_pos hs]
    have hr : ¬ lat + d < 0 := by
      intro hneg
      have := hs.1
      rw [abs_of_neg hneg] at this
      linarith
    rw [if_neg hr]
    refine ⟨by linarith, by norm_num, .inl (by norm_num)⟩
  · rw [if_neg hs]
    refine ⟨by linarith, by linarith, .inr ?_⟩
    rw [not_and_or, not_lt, not_lt] at hs
    rcases hs with hs | hs
    · have hle := (abs_le.1 hs).2
      have habs : |lat| ≤ 88 := abs_le.2 ⟨h1, by linarith⟩
      have hc : 1 / 45 ≤ c := by linarith
      have : dy / 150 ≤ d := by
        have : dy * (1 / 45) ≤ dy * c := mul_le_mul_of_nonneg_left hc h0.le
        linarith
      linarith [min_le_left (dy / 150) (1 / 60 : ℝ)]
    · have hr : realTrig.rad = Real.pi / 180 := rfl
      rw [hr] at hs
      have : 1 / 60 ≤ d := by
        by_contra hc
        rw [not_le] at hc
        have h7 : d * (Real.pi / 180) * 6378137 < 1 / 60 * (3.15 / 180) * 6378137 := by
          have a1 : d * (Real.pi / 180) ≤ d * (3.15 / 180) := mul_le_mul_of_nonneg_left (by linarith) hd.le
          have a2 : d * (3.15 / 180) < 1 / 60 * (3.15 / 180) := mul_lt_mul_of_pos_right hc (by norm_num)
          have := lt_of_le_of_lt a1 a2
          exact mul_lt_mul_of_pos_right this (by norm_num)
        have h8 : (1 / 60 * (3.15 / 180) * 6378137 : ℝ) < 2000 := by norm_num
        linarith
      linarith [min_le_right (dy / 150) (1 / 60 : ℝ)]

/-- The counting loop ends when there is room for the rows. -/
theorem countRows_ends {tol dy maxY : ℝ} (h0 : 0 < dy) (h57 : dy ≤ 57) : ∀ (j k : Nat) (cur : ℝ), -88 ≤ cur → cur < 90 →
    90 - cur ≤ j * min (dy / 150) (1 / 60) → j + 1 ≤ k → ∃ r : Nat, countRows realTrig tol dy maxY k cur = .ok r ∧ r ≤ j := by
  intro j
  induction j with
  | zero => intro k cur h1 h2 h3 _; simp at h3; linarith
  | succ j ih =>
    intro k cur h1 h2 h3 hk
    obtain ⟨k, rfl⟩ : ∃ k', k = k' + 1 := ⟨k - 1, by omega⟩
    simp only [countRows]
    split
    · obtain ⟨b1, b2, b3⟩ := nextLatitude_bounds h0 h57 h1 h2
      split
      · exact ⟨1, rfl, by omega⟩
      · next hp =>
        have hne : nextLatitude realTrig dy cur ≠ 90 := by
          intro h; rw [h] at hp; simp [isEqual] at hp
        have hge := b3.resolve_left hne
        have hlt : nextLatitude realTrig dy cur < 90 := lt_of_le_of_ne b2 hne
        obtain ⟨r, hr, hrj⟩ := ih k (nextLatitude realTrig dy cur) (by linarith) hlt (by push_cast at h3; linarith) (by omega)
        rw [hr, Res.ok_bind]
        exact ⟨r + 1, by push_cast; rfl, by omega⟩
    · exact ⟨0, rfl, by omega⟩

end Verif.Rect
