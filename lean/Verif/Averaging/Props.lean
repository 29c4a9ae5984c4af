import Verif.Averaging.Model
import Mathlib.Tactic.Linarith
import Mathlib.Tactic.Positivity
import Mathlib.Tactic.NormNum
import Mathlib.Tactic.Ring
/-!
# C29: averaging interpolation stays within the data
-/
namespace Verif.Averaging
set_option linter.unusedSectionVars false
variable {K : Type} [Field K] [LinearOrder K] [IsStrictOrderedRing K]

/-! ### Extremes -/

/-- With samples above the least double, the maximum method returns the largest sample value; it
returns missing when there are no samples. -/
theorem maximum_exact (lowest : K) (ss : List (Sample K)) (h : ∀ s ∈ ss, lowest < s.value) :
    (ss = [] → maximum lowest ss = -999) ∧
    (ss ≠ [] → (∃ s ∈ ss, maximum lowest ss = s.value) ∧ ∀ s ∈ ss, s.value ≤ maximum lowest ss) := by
  have key : ∀ (l : List (Sample K)) (r : K),
      let q := l.foldl (fun r s => if r < s.value then s.value else r) r
      r ≤ q ∧ (∀ s ∈ l, s.value ≤ q) ∧ (q = r ∨ ∃ s ∈ l, q = s.value) := by
    intro l
    induction l with
    | nil => intro r; simp
    | cons s l ih =>
      intro r
      obtain ⟨h1, h2, h3⟩ := ih (if r < s.value then s.value else r)
      simp only [List.foldl_cons, List.mem_cons, forall_eq_or_imp]
      refine ⟨?_, ⟨?_, h2⟩, ?_⟩
      · refine le_trans ?_ h1; split
        · exact le_of_lt ‹_›
        · exact le_refl _
      · refine le_trans ?_ h1; split
        · exact le_refl _
        · exact not_lt.1 ‹_›
      · rcases h3 with h3 | ⟨t, ht, h3⟩
        · rw [h3]; split
          · exact Or.inr ⟨s, Or.inl rfl, rfl⟩
          · exact Or.inl rfl
        · exact Or.inr ⟨t, Or.inr ht, h3⟩
  obtain ⟨_, h2, h3⟩ := key ss lowest
  constructor
  · rintro rfl; simp [maximum, missingValue]
  · intro hne
    obtain ⟨t, ht⟩ := List.exists_mem_of_ne_nil ss hne
    have hlt : ss.foldl (fun r s => if r < s.value then s.value else r) lowest ≠ lowest :=
      (lt_of_lt_of_le (h t ht) (h2 t ht)).ne'
    simp only [maximum, if_pos hlt]
    exact ⟨h3.resolve_left hlt, h2⟩

theorem min_fold (f : Sample K → K) : ∀ (l : List (Sample K)) (r : K),
    let q := l.foldl (fun r s => if f s < r then f s else r) r
    q ≤ r ∧ (∀ s ∈ l, q ≤ f s) ∧ (q = r ∨ ∃ s ∈ l, q = f s) := by
  intro l
  induction l with
  | nil => intro r; simp
  | cons s l ih =>
    intro r
    obtain ⟨h1, h2, h3⟩ := ih (if f s < r then f s else r)
    simp only [List.foldl_cons, List.mem_cons, forall_eq_or_imp]
    refine ⟨?_, ⟨?_, h2⟩, ?_⟩
    · refine le_trans h1 ?_; split
      · exact le_of_lt ‹_›
      · exact le_refl _
    · refine le_trans h1 ?_; split
      · exact le_refl _
      · exact not_lt.1 ‹_›
    · rcases h3 with h3 | ⟨t, ht, h3⟩
      · rw [h3]; split
        · exact Or.inr ⟨s, Or.inl rfl, rfl⟩
        · exact Or.inl rfl
      · exact Or.inr ⟨t, Or.inr ht, h3⟩

/-- The minimum method returns the smallest sample value, missing when there are no samples. -/
theorem minimum_exact (top : K) (ss : List (Sample K)) (h : ∀ s ∈ ss, s.value < top) :
    (ss = [] → minimum top ss = -999) ∧
    (ss ≠ [] → (∃ s ∈ ss, minimum top ss = s.value) ∧ ∀ s ∈ ss, minimum top ss ≤ s.value) := by
  obtain ⟨_, h2, h3⟩ := min_fold (fun s => s.value) ss top
  constructor
  · rintro rfl; simp [minimum, missingValue]
  · intro hne
    obtain ⟨t, ht⟩ := List.exists_mem_of_ne_nil ss hne
    have hlt : ss.foldl (fun r s => if s.value < r then s.value else r) top ≠ top :=
      (lt_of_le_of_lt (h2 t ht) (h t ht)).ne
    simp only [minimum, if_pos hlt]
    exact ⟨h3.resolve_left hlt, h2⟩

theorem stdAbs_eq (v : K) : stdAbs v = |v| := by
  unfold stdAbs; split
  · exact (abs_of_neg ‹_›).symm
  · exact (abs_of_nonneg (not_lt.1 ‹_›)).symm

/-- The minimum-absolute-value method returns the least absolute value among the samples.  This is a
sample value only up to sign: see `minimumAbs_leaves_data`. -/
theorem minimumAbs_partial (top : K) (ss : List (Sample K)) (h : ∀ s ∈ ss, |s.value| < top) :
    (ss = [] → minimumAbs top ss = -999) ∧
    (ss ≠ [] → (∃ s ∈ ss, minimumAbs top ss = |s.value|) ∧ ∀ s ∈ ss, minimumAbs top ss ≤ |s.value|) := by
  obtain ⟨_, h2, h3⟩ := min_fold (fun s => stdAbs s.value) ss top
  constructor
  · rintro rfl; simp [minimumAbs, missingValue]
  · intro hne
    obtain ⟨t, ht⟩ := List.exists_mem_of_ne_nil ss hne
    have hlt : ss.foldl (fun r s => if stdAbs s.value < r then stdAbs s.value else r) top ≠ top :=
      (lt_of_le_of_lt (h2 t ht) (by rw [stdAbs_eq]; exact h t ht)).ne
    simp only [minimumAbs, if_pos hlt]
    simp only [stdAbs_eq] at h2 h3 hlt ⊢
    exact ⟨h3.resolve_left hlt, h2⟩

/-- All samples are -5, the answer is 5. -/
theorem minimumAbs_leaves_data :
    ∃ ss : List (Sample ℚ), (∀ s ∈ ss, s.value = -5) ∧ ss ≠ [] ∧ minimumAbs 1000000 ss = 5 :=
  ⟨[⟨-5, 1⟩, ⟨-5, 2⟩], by simp, by simp, by norm_num [minimumAbs, stdAbs]⟩

/-- A sample equal to the largest double is reported as missing. -/
theorem minimum_of_top_missing (top : K) (d : K) : minimum top [⟨top, d⟩] = -999 := by simp [minimum, missingValue]

/-! ### Closest -/

/-- The closest method returns the value of the first sample at the least distance, missing when
there are no samples. -/
theorem closest_exact (top : K) (ss : List (Sample K)) (h : ∀ s ∈ ss, s.dist < top) :
    (ss = [] → closest top ss = -999) ∧
    (ss ≠ [] → ∃ l s r, ss = l ++ s :: r ∧ closest top ss = s.value ∧ (∀ t ∈ l, s.dist < t.dist) ∧
      ∀ t ∈ r, s.dist ≤ t.dist) := by
  have key : ∀ (l : List (Sample K)) (res best : K),
      (closestLoop res best l = res ∧ ∀ t ∈ l, best ≤ t.dist) ∨
      ∃ a s b, l = a ++ s :: b ∧ closestLoop res best l = s.value ∧ s.dist < best ∧ (∀ t ∈ a, s.dist < t.dist) ∧
        ∀ t ∈ b, s.dist ≤ t.dist := by
    intro l
    induction l with
    | nil => intro res best; left; simp [closestLoop]
    | cons s l ih =>
      intro res best
      by_cases hs : s.dist < best
      · right
        rcases ih s.value s.dist with ⟨h1, h2⟩ | ⟨a, t, b, e, h1, h2, h3, h4⟩
        · exact ⟨[], s, l, rfl, by simp [closestLoop, hs, h1], hs, by simp, h2⟩
        · refine ⟨s :: a, t, b, by rw [e]; rfl, by simp [closestLoop, hs, h1], h2.trans hs, ?_, h4⟩
          intro q hq
          rcases List.mem_cons.1 hq with rfl | hq
          · exact h2
          · exact h3 q hq
      · rcases ih res best with ⟨h1, h2⟩ | ⟨a, t, b, e, h1, h2, h3, h4⟩
        · left
          refine ⟨by simp [closestLoop, hs, h1], ?_⟩
          intro q hq
          rcases List.mem_cons.1 hq with rfl | hq
          · exact not_lt.1 hs
          · exact h2 q hq
        · right
          refine ⟨s :: a, t, b, by rw [e]; rfl, by simp [closestLoop, hs, h1], h2, ?_, h4⟩
          intro q hq
          rcases List.mem_cons.1 hq with rfl | hq
          · exact lt_of_lt_of_le h2 (not_lt.1 hs)
          · exact h3 q hq
  constructor
  · rintro rfl; simp [closest, closestLoop, missingValue]
  · intro hne
    rcases key ss missingValue top with ⟨_, h2⟩ | ⟨a, s, b, e, h1, _, h3, h4⟩
    · obtain ⟨t, ht⟩ := List.exists_mem_of_ne_nil ss hne
      exact absurd (h t ht) (not_lt.2 (h2 t ht))
    · exact ⟨a, s, b, e, h1, h3, h4⟩

/-! ### Means -/

theorem sum_fold (l : List (Sample K)) (a lo hi : K) (h : ∀ s ∈ l, lo ≤ s.value ∧ s.value ≤ hi) :
    a + (l.length : K) * lo ≤ l.foldl (fun v s => v + s.value) a ∧
    l.foldl (fun v s => v + s.value) a ≤ a + (l.length : K) * hi := by
  induction l generalizing a with
  | nil => simp
  | cons s l ih =>
    have hs := h s List.mem_cons_self
    have := ih (a + s.value) (fun t ht => h t (List.mem_cons_of_mem _ ht))
    simp only [List.foldl_cons, List.length_cons, Nat.cast_add, Nat.cast_one]
    constructor
    · refine le_trans ?_ this.1; linarith [hs.1]
    · refine le_trans this.2 ?_; linarith [hs.2]

theorem sum_eq (l : List (Sample K)) (a : K) :
    l.foldl (fun v s => v + s.value) a = a + (l.map (·.value)).sum := by
  induction l generalizing a with
  | nil => simp
  | cons s l ih => simp only [List.foldl_cons, ih, List.map_cons, List.sum_cons]; ring

/-- Simple averaging gives the mean, which lies within the data; missing exactly when there are fewer
samples than required, if at least one is required. -/
theorem simple_exact_partial (minNum : Nat) (ss : List (Sample K)) (hm : 0 < minNum) :
    (ss.length < minNum → simple minNum ss = .num (-999)) ∧
    (minNum ≤ ss.length → ∃ r, simple minNum ss = .num r ∧ r * ss.length = (ss.map (·.value)).sum ∧
      ∀ lo hi, (∀ s ∈ ss, lo ≤ s.value ∧ s.value ≤ hi) → lo ≤ r ∧ r ≤ hi) := by
  constructor
  · intro h
    simp only [simple, missingValue]
    rw [if_neg (by omega)]
  · intro h
    have hp : (0 : K) < (ss.length : K) := by exact_mod_cast (by omega : 0 < ss.length)
    simp only [simple]
    rw [if_pos h]
    simp only [divide, if_neg hp.ne']
    refine ⟨_, rfl, ?_, ?_⟩
    · rw [div_mul_cancel₀ _ hp.ne', sum_eq, zero_add]
    · intro lo hi hb
      have := sum_fold ss 0 lo hi hb
      rw [zero_add, zero_add] at this
      exact ⟨(le_div_iff₀ hp).2 (by linarith [this.1]), (div_le_iff₀ hp).2 (by linarith [this.2])⟩

/-- When no sample is required and there is none, the answer is not a number, instead of missing. -/
theorem simple_of_nothing : simple (K := K) 0 [] = .nan := by simp [simple, divide]

theorem weight_pos (s : Sample K) : 0 < weight s := by
  unfold weight
  apply one_div_pos.2
  split
  · rename_i h
    have : (0 : K) < 1 / 100 := by norm_num
    exact this.trans h
  · norm_num

theorem weighted_fold (l : List (Sample K)) (a : K × K) (lo hi : K)
    (h : ∀ s ∈ l, lo ≤ s.value ∧ s.value ≤ hi) (h0 : a.1 * lo ≤ a.2 ∧ a.2 ≤ a.1 * hi) :
    let q := l.foldl (fun a s => (a.1 + weight s, a.2 + weight s * s.value)) a
    q.1 * lo ≤ q.2 ∧ q.2 ≤ q.1 * hi := by
  induction l generalizing a with
  | nil => exact h0
  | cons s l ih =>
    have hs := h s List.mem_cons_self
    have hw := weight_pos s
    refine ih _ (fun t ht => h t (List.mem_cons_of_mem _ ht)) ?_
    have e1 := mul_le_mul_of_nonneg_left hs.1 hw.le
    have e2 := mul_le_mul_of_nonneg_left hs.2 hw.le
    exact ⟨by simp only [add_mul]; linarith [h0.1], by simp only [add_mul]; linarith [h0.2]⟩

theorem weight_fold (l : List (Sample K)) (a : K × K) :
    (l.foldl (fun a s => (a.1 + weight s, a.2 + weight s * s.value)) a).1 = a.1 + (l.map weight).sum := by
  induction l generalizing a with
  | nil => simp
  | cons s l ih => rw [List.foldl_cons, ih]; simp only [List.map_cons, List.sum_cons]; ring

theorem weights_pos (l : List (Sample K)) (h : l ≠ []) : 0 < (l.map weight).sum := by
  have nn : ∀ l : List (Sample K), 0 ≤ (l.map weight).sum := by
    intro l
    induction l with
    | nil => simp
    | cons s l ih => simp only [List.map_cons, List.sum_cons]; exact add_nonneg (weight_pos s).le ih
  cases l with
  | nil => exact absurd rfl h
  | cons s l => simp only [List.map_cons, List.sum_cons]; exact add_pos_of_pos_of_nonneg (weight_pos s) (nn l)

/-- Inverse distance weighting stays within the data, unless it reports missing.  Missing is decided
by the sum of the weights instead of the number of samples, hence partial: see the next theorem. -/
theorem inverse_weighted_partial (minNum : Nat) (ss : List (Sample K)) (hne : ss ≠ []) :
    ((ss.map weight).sum < (minNum : K) → inverseWeighted minNum ss = .num (-999)) ∧
    ((minNum : K) ≤ (ss.map weight).sum → ∃ r, inverseWeighted minNum ss = .num r ∧
      ∀ lo hi, (∀ s ∈ ss, lo ≤ s.value ∧ s.value ≤ hi) → lo ≤ r ∧ r ≤ hi) := by
  have hw := weight_fold ss ((0 : K), (0 : K))
  rw [zero_add] at hw
  have hp := weights_pos ss hne
  constructor
  · intro h
    simp only [inverseWeighted, missingValue, hw]
    rw [if_neg (not_le.2 h)]
  · intro h
    simp only [inverseWeighted, hw]
    rw [if_pos h]
    simp only [divide, if_neg hp.ne']
    refine ⟨_, rfl, ?_⟩
    intro lo hi hb
    have := weighted_fold ss ((0 : K), (0 : K)) lo hi hb (by simp)
    simp only [hw] at this
    exact ⟨(le_div_iff₀ hp).2 (by linarith [this.1]), (div_le_iff₀ hp).2 (by linarith [this.2])⟩

/-- One sample is required and one is given, but it lies further than one unit away: missing.  And
fifty are required but one, close by, is enough. -/
theorem inverse_weighted_counts_weight :
    inverseWeighted (K := ℚ) 1 [⟨7, 2⟩] = .num (-999) ∧ inverseWeighted (K := ℚ) 50 [⟨7, 0⟩] = .num 7 := by
  constructor <;> norm_num [inverseWeighted, weight, missingValue, divide]

/-! ### Concrete cases -/

/-- Three samples. -/
def three : List (Sample ℚ) := [⟨4, 2⟩, ⟨-1, 1⟩, ⟨3, 1⟩]

example : (∀ s ∈ three, (-1000 : ℚ) < s.value ∧ s.value < 1000 ∧ |s.value| < 1000 ∧ s.dist < 1000) ∧ three ≠ [] := by
  constructor
  · intro s hs
    simp only [three, List.mem_cons, List.not_mem_nil, or_false] at hs
    rcases hs with rfl | rfl | rfl <;> norm_num
  · simp [three]
example : closest 1000 three = -1 ∧ maximum (-1000) three = 4 ∧ minimum 1000 three = -1 ∧ minimumAbs 1000 three = 1 ∧
    simple 3 three = .num 2 ∧ inverseWeighted 2 three = .num (8 / 5) := by
  refine ⟨?_, ?_, ?_, ?_, ?_, ?_⟩ <;>
    norm_num [three, closest, closestLoop, maximum, minimum, minimumAbs, stdAbs, simple, divide, inverseWeighted, weight]

end Verif.Averaging
