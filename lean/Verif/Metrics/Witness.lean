import Verif.Metrics.Props
/-!
# C76, C77: where smoothness and curvature of a curvilinear grid fail
-/
namespace Verif.Metrics
open Verif.Curvi Verif.CurviLine

/-- Negation of C77: on a circle of radius `R` about `o`, with equal angles between the nodes whose cosine is `k`, the value
is `1000 / R` for a single angle only. -/
theorem circle_not_reciprocal (o : Pt ℝ) (R x y k s : ℝ) (hR : 0 < R) (hxy : x ^ 2 + y ^ 2 = 1) (hks : k ^ 2 + s ^ 2 = 1)
    (hs : s ≠ 0) (a b c : Pt ℝ) (ha : Set a) (hb : Set b) (hc : Set c)
    (ea : a = ⟨o.x + R * (x * k + y * s), o.y + R * (y * k - x * s)⟩)
    (eb : b = ⟨o.x + R * x, o.y + R * y⟩)
    (ec : c = ⟨o.x + R * (x * k - y * s), o.y + R * (y * k + x * s)⟩) (h : k ≠ -1 / 2) : nodeCurvature a b c ≠ 1000 / R := by
  rw [curvature_on_circle_partial o R x y k s hR hxy hks hs a b c ha hb hc ea eb ec]
  intro e
  have hk : -1 < k := by
    by_contra hk
    have h1 : k ≤ -1 := not_lt.1 hk
    have : 0 < s ^ 2 := by positivity
    nlinarith
  have hp : 0 < √(2 + 2 * k) := Real.sqrt_pos.2 (by linarith)
  rw [div_eq_div_iff (by positivity) (by positivity)] at e
  have e1 : √(2 + 2 * k) = 1 := by
    have : R * √(2 + 2 * k) = R * 1 := by linarith
    exact mul_left_cancel₀ hR.ne' this
  rw [Real.sqrt_eq_one] at e1
  exact h (by linarith)

/-- Negation of C77: the value depends on the direction in which the nodes are numbered. -/
theorem curvature_not_symmetric :
    nodeCurvature ⟨0, 0⟩ ⟨1, 0⟩ ⟨4, 4⟩ = 1000 / 7 ∧ nodeCurvature ⟨4, 4⟩ ⟨1, 0⟩ ⟨0, 0⟩ = 1000 / 5 := by
  have hs : ∀ x y : ℝ, 0 ≤ x → 0 ≤ y → Set ⟨x, y⟩ := fun x y hx hy => ⟨by simp only; linarith, by simp only; linarith⟩
  have a := hs 0 0 (by norm_num) (by norm_num)
  have b := hs 1 0 (by norm_num) (by norm_num)
  have c := hs 4 4 (by norm_num) (by norm_num)
  constructor
  · rw [curvature_eq _ _ _ a b c]
    have : rawRadius ⟨0, 0⟩ ⟨1, 0⟩ ⟨4, 4⟩ = 7 := by
      unfold rawRadius area2 squared
      norm_num
    rw [this]
    unfold notZero
    norm_num
  · rw [curvature_eq _ _ _ c b a]
    have : rawRadius ⟨4, 4⟩ ⟨1, 0⟩ ⟨0, 0⟩ = 5 := by
      have h25 : √(25 : ℝ) = 5 := by rw [show (25 : ℝ) = 5 ^ 2 by norm_num, Real.sqrt_sq (by norm_num)]
      unfold rawRadius area2 squared
      norm_num
      rw [h25]
    rw [this]
    unfold notZero
    norm_num

/-- Negation of C77: a grid line that turns back sharply is reported like a straight one. -/
theorem sharp_turn_is_straight : nodeCurvature ⟨0, 0⟩ ⟨1, 1⟩ ⟨1, 0⟩ = nodeCurvature ⟨0, 0⟩ ⟨1, 0⟩ ⟨2, 0⟩ := by
  have hs : ∀ x y : ℝ, 0 ≤ x → 0 ≤ y → Set ⟨x, y⟩ := fun x y hx hy => ⟨by simp only; linarith, by simp only; linarith⟩
  have a := hs 0 0 (by norm_num) (by norm_num)
  have b := hs 1 1 (by norm_num) (by norm_num)
  have c := hs 1 0 (by norm_num) (by norm_num)
  have d := hs 2 0 (by norm_num) (by norm_num)
  rw [curvature_straight _ _ _ a c d (by norm_num), curvature_eq _ _ _ a b c]
  have : rawRadius ⟨0, 0⟩ ⟨1, 1⟩ ⟨1, 0⟩ = 0 := by
    unfold rawRadius area2 squared
    norm_num
  rw [this]
  unfold notZero
  rw [if_pos rfl, abs_of_pos (by norm_num)]
  norm_num

/-- Negation of C76: nodes that have collapsed onto each other are reported as perfectly smooth. -/
theorem collapsed_is_smooth : nodeSmoothness ⟨0, 0⟩ ⟨0, 0⟩ ⟨4, 0⟩ = 1 := by
  have hs : ∀ x : ℝ, 0 ≤ x → Set ⟨x, 0⟩ := fun x hx => ⟨by simp only; linarith, by norm_num⟩
  refine (smoothness_meaning _ _ _ (hs 0 (by norm_num)) (hs 0 (by norm_num)) (hs 4 (by norm_num))).2.1.2 (Or.inr (Or.inl ?_))
  unfold distance
  norm_num

end Verif.Metrics
