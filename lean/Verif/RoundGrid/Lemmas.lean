import Verif.RoundGrid.Spec
import Mathlib.Tactic.Linarith
import Mathlib.Tactic.Ring
import Mathlib.Tactic.FieldSimp
import Mathlib.Tactic.NormNum
import Mathlib.Tactic.Positivity
import Mathlib.Data.List.Basic

/-!
# Lemmas on circular and graded grids
-/
namespace Verif.RoundGrid

theorem cpow_pos {g : ℝ} (hg : 0 < g) (e : ℝ) : cpow (some g) e = some (g ^ e) := by
  simp only [cpow]
  rw [if_neg]
  rintro ⟨h, -⟩
  exact hg.ne' h

/-- The number that grading uses. -/
theorem grading_pos {mx : ℝ} (h : 0 < mx) (c : ℤ) (hc : c ≠ 0) :
    grading mx c = some (mx ^ (1 / (c : ℝ))) := by
  unfold grading
  rw [if_neg hc, cpow_pos h]

/-- Below a fraction of one, the number of uniform elements and the cutoff are as intended. -/
theorem floor_lt {size : ℕ} (hs : 0 < size) {f : ℝ} (h0 : 0 ≤ f) (h1 : f < 1) :
    ⌊(size : ℝ) * f⌋₊ + 1 ≤ size := by
  have hp : (0 : ℝ) < size := by exact_mod_cast hs
  have : ⌊(size : ℝ) * f⌋₊ < size := by
    rw [Nat.floor_lt (by positivity)]
    nlinarith
  omega

theorem uniformInt_eq {size : ℕ} (hs : 0 < size) (hb : size < 2 ^ 31) {f : ℝ} (h0 : 0 ≤ f)
    (h1 : f < 1) :
    ∃ u k : ℕ, uniformInt size f = .ok (u : ℤ) ∧ size = 2 * k + 1 + u ∧
      cutoffInt size u = (k : ℤ) + 1 ∧ ⌊(size : ℝ) * f⌋₊ ≤ u ∧ u ≤ ⌊(size : ℝ) * f⌋₊ + 1 := by
  have hl := floor_lt hs h0 h1
  unfold uniformInt cutoffInt
  generalize ⌊(size : ℝ) * f⌋₊ = c at hl
  have hc : c < 2 ^ 31 := by omega
  obtain ⟨t, ht⟩ : ∃ t, size = c + 1 + t := ⟨size - (c + 1), by omega⟩
  refine ⟨c + t % 2, t / 2, ?_, by omega, ?_, by omega, by omega⟩
  · simp only
    rw [if_pos hc]
    have : ((size : ℤ) - 1 - c) = ((t : ℕ) : ℤ) := by push_cast [ht]; ring
    rw [this]
    congr 1
  · have : ((size : ℤ) - ((c + t % 2 : ℕ) : ℤ)) = ((2 * (t / 2) + 1 : ℕ) : ℤ) := by omega
    rw [this]
    have : Int.tdiv ((2 * (t / 2) + 1 : ℕ) : ℤ) 2 = (((2 * (t / 2) + 1) / 2 : ℕ) : ℤ) := rfl
    rw [this]
    omega

theorem uniformUInt_eq {size : ℕ} (hs : 0 < size) (hb : size < 2 ^ 31) {f : ℝ} (h0 : 0 ≤ f)
    (h1 : f < 1) :
    ∃ u k : ℕ, uniformUInt size f = .ok u ∧ size = 2 * k + 1 + u ∧ cutoffUInt size u = k + 1 := by
  have hl := floor_lt hs h0 h1
  unfold uniformUInt cutoffUInt
  generalize ⌊(size : ℝ) * f⌋₊ = c at hl
  have hc : c < 2 ^ 32 := by omega
  obtain ⟨t, ht⟩ : ∃ t, size = c + 1 + t := ⟨size - (c + 1), by omega⟩
  refine ⟨c + t % 2, t / 2, ?_, by omega, ?_⟩
  · simp only
    rw [if_pos hc]
    congr 1
    omega
  · omega

/-- The loop that adds steps stores the numbers that the steps lead to. -/
theorem accum_eq {d : ℕ → Option ℝ} {δ X : ℕ → ℝ} (hd : ∀ m, d m = some (δ m))
    (hX : ∀ m, X (m + 1) = X m + δ (m + 1)) (k : ℕ) :
    ∀ m, accum d k m (X m - δ m) = some ((List.range' m k).map X) := by
  induction k with
  | zero => intro m; rfl
  | succ k ih =>
    intro m
    have h1 : X m - δ m + δ m = X (m + 1) - δ (m + 1) := by rw [hX]; ring
    have h2 : X m - δ m + δ m = X m := by ring
    rw [accum, hd]
    simp only
    rw [h1, ih (m + 1), ← h1, h2]
    rfl

/-- The loop stores as many values as asked for. -/
theorem accum_length {d : ℕ → Option ℝ} (k : ℕ) :
    ∀ m x l, accum d k m x = some l → l.length = k := by
  induction k with
  | zero => intro m x l h; simp only [accum, Option.some.injEq] at h; subst h; rfl
  | succ k ih =>
    intro m x l h
    rw [accum] at h
    cases hd : d m with
    | none => rw [hd] at h; cases h
    | some s =>
      rw [hd] at h
      simp only at h
      cases ha : accum d k (m + 1) (x + s) with
      | none => rw [ha] at h; cases h
      | some l' =>
        rw [ha] at h
        simp only [Option.some.injEq] at h
        subst h
        rw [List.length_cons, ih _ _ _ ha]

theorem regularRadii_eq (block : ℝ) (k : ℕ) :
    ∀ r, regularRadii block k r = (List.range k).map fun n : ℕ => r + block * (n : ℝ) := by
  induction k with
  | zero => intro r; rfl
  | succ k ih =>
    intro r
    rw [regularRadii, ih, List.range_succ_eq_map, List.map_cons, List.map_map]
    congr 1
    · simp
    · apply List.map_congr_left
      intro n _
      simp only [Function.comp, Nat.succ_eq_add_one]
      push_cast
      ring

/-- The numbers reached by adding steps. -/
noncomputable def reach (x0 : ℝ) (δ : ℕ → ℝ) : ℕ → ℝ
  | 0 => x0 + δ 0
  | m + 1 => reach x0 δ m + δ (m + 1)

theorem accum_reach {d : ℕ → Option ℝ} {δ : ℕ → ℝ} (hd : ∀ m, d m = some (δ m)) (k : ℕ) (x0 : ℝ) :
    accum d k 0 x0 = some ((List.range k).map (reach x0 δ)) := by
  have h := accum_eq (X := reach x0 δ) hd (fun _ => rfl) k 0
  have h0 : reach x0 δ 0 - δ 0 = x0 := by simp [reach]
  rw [h0] at h
  rw [h, List.range_eq_range']

/-- A widths list for graded columns: `k` shrinking, `u` of block size, then growing. -/
noncomputable def widthX (block γ : ℝ) (u k : ℕ) (m : ℕ) : ℝ :=
  if m < k + 1 then block * γ ^ (((k + 1 - m : ℕ) : ℝ))
  else if m < k + 1 + u then block
  else block * γ ^ (((m - k - u : ℕ) : ℝ))

theorem stepX_eq {block γ : ℝ} (hγ : 0 < γ) (u k m : ℕ) :
    stepX block (some γ) u ((k : ℤ) + 1) m = some (widthX block γ u k m) := by
  unfold stepX widthX
  by_cases h1 : m < k + 1
  · rw [if_pos (by omega), if_pos h1, cpow_pos hγ, Option.map_some]
    congr 3
    have : (((k : ℤ) + 1 - m : ℤ)) = ((k + 1 - m : ℕ) : ℤ) := by omega
    rw [this]; rfl
  · rw [if_neg (by omega), if_neg h1]
    by_cases h2 : m < k + 1 + u
    · rw [if_pos (by omega), if_pos h2]
    · rw [if_neg (by omega), if_neg h2, cpow_pos hγ, Option.map_some]
      congr 3
      have : ((m : ℤ) + 1 - ((k : ℤ) + 1) - u : ℤ) = ((m - k - u : ℕ) : ℤ) := by omega
      rw [this]; rfl

theorem xValues_graded {size : ℕ} (hs : 0 < size) (hb : size < 2 ^ 31) {block f mx : ℝ}
    (h0 : 0 ≤ f) (h1 : f < 1) (hm : 0 < mx) (hm1 : mx ≠ 1) :
    ∃ u k : ℕ, size = 2 * k + 1 + u ∧ ⌊(size : ℝ) * f⌋₊ ≤ u ∧ u ≤ ⌊(size : ℝ) * f⌋₊ + 1 ∧
      xValues size block f mx = .ok (some ((List.range size).map
        (reach (-(widthX block (mx ^ (1 / ((k : ℝ) + 1))) u k 0))
          (widthX block (mx ^ (1 / ((k : ℝ) + 1))) u k)))) := by
  obtain ⟨u, k, hu, hsz, hc, hl, hr⟩ := uniformInt_eq hs hb h0 h1
  refine ⟨u, k, hsz, hl, hr, ?_⟩
  have hg : grading mx ((k : ℤ) + 1) = some (mx ^ (1 / ((k : ℝ) + 1))) := by
    rw [grading_pos hm _ (by omega)]; push_cast; rfl
  have hγ : 0 < mx ^ (1 / ((k : ℝ) + 1)) := Real.rpow_pos_of_pos hm _
  unfold xValues
  rw [if_neg (by rintro (h | h); exacts [h1.ne h, hm1 h]), hu]
  simp only [Res.bind]
  rw [hc, hg, cpow_pos hγ]
  simp only
  rw [accum_reach (fun m => stepX_eq hγ u k m)]
  congr 4
  simp only [widthX]
  rw [if_pos (by omega)]
  push_cast
  simp

/-- Steps of graded rows. -/
noncomputable def widthY (block γ : ℝ) (u : ℕ) (n : ℕ) : ℝ :=
  if n < u then block else block * γ ^ (((n + 1 - u : ℕ) : ℝ))

theorem stepY_eq {block γ : ℝ} (hγ : 0 < γ) (u n : ℕ) :
    stepY block (some γ) u n = some (widthY block γ u n) := by
  unfold stepY widthY
  by_cases h1 : n < u
  · rw [if_pos (by omega), if_pos h1]
  · rw [if_neg (by omega), if_neg h1, cpow_pos hγ, Option.map_some]
    congr 3
    have : ((n : ℤ) + 1 - u : ℤ) = ((n + 1 - u : ℕ) : ℤ) := by omega
    rw [this]; rfl

theorem yValues_graded {size : ℕ} (hs : 0 < size) (hb : size < 2 ^ 31) {block f mx : ℝ}
    (h0 : 0 ≤ f) (h1 : f < 1) (hm : 0 < mx) (hm1 : mx ≠ 1) :
    ∃ u k : ℕ, size = 2 * k + 1 + u ∧ uniformInt size f = .ok (u : ℤ) ∧
      yValues size block f mx = .ok (some ((List.range size).map
        (reach (-block * (mx ^ (1 / ((k : ℝ) + 1))) ^ ((1 : ℝ) - u))
          (widthY block (mx ^ (1 / ((k : ℝ) + 1))) u)))) := by
  obtain ⟨u, k, hu, hsz, hc, -, -⟩ := uniformInt_eq hs hb h0 h1
  refine ⟨u, k, hsz, hu, ?_⟩
  have hg : grading mx ((k : ℤ) + 1) = some (mx ^ (1 / ((k : ℝ) + 1))) := by
    rw [grading_pos hm _ (by omega)]; push_cast; rfl
  have hγ : 0 < mx ^ (1 / ((k : ℝ) + 1)) := Real.rpow_pos_of_pos hm _
  unfold yValues
  rw [if_neg (by rintro (h | h); exacts [h1.ne h, hm1 h]), hu]
  simp only [Res.bind]
  rw [hc, hg, cpow_pos hγ]
  simp only
  rw [accum_reach (fun m => stepY_eq hγ u m)]
  push_cast
  rfl

/-- Steps of graded radii. -/
noncomputable def widthR (block γ : ℝ) (u : ℕ) (n : ℕ) : ℝ :=
  if n < u then block else block * γ ^ (((n - u : ℕ) : ℝ))

theorem stepR_eq {block γ : ℝ} (hγ : 0 < γ) (u n : ℕ) :
    stepR block (some γ) u n = some (widthR block γ u n) := by
  unfold stepR widthR
  by_cases h1 : n < u
  · rw [if_pos h1, if_pos h1]
  · rw [if_neg h1, if_neg h1, cpow_pos hγ, Option.map_some]

theorem radiusValues_graded {size : ℕ} (hs : 0 < size) (hb : size < 2 ^ 31) {r0 block f mx : ℝ}
    (h0 : 0 ≤ f) (h1 : f < 1) (hm : 0 < mx) (hm1 : mx ≠ 1) :
    ∃ u k : ℕ, size = 2 * k + 1 + u ∧
      radiusValues size r0 block f mx = .ok (some ((List.range size).map
        (reach r0 (widthR block (mx ^ (1 / ((k : ℝ) + 1))) u)))) := by
  obtain ⟨u, k, hu, hsz, hc⟩ := uniformUInt_eq hs hb h0 h1
  refine ⟨u, k, hsz, ?_⟩
  have hg : grading mx (((k + 1 : ℕ)) : ℤ) = some (mx ^ (1 / ((k : ℝ) + 1))) := by
    rw [grading_pos hm _ (by omega)]; push_cast; rfl
  have hγ : 0 < mx ^ (1 / ((k : ℝ) + 1)) := Real.rpow_pos_of_pos hm _
  unfold radiusValues
  rw [if_neg (by rintro (h | h); exacts [h1.ne h, hm1 h]), hu]
  simp only [Res.bind]
  rw [hc, hg, accum_reach (fun m => stepR_eq hγ u m)]

theorem widthX_pos {block γ : ℝ} (hb : 0 < block) (hγ : 0 < γ) (u k m : ℕ) :
    0 < widthX block γ u k m := by
  unfold widthX
  split_ifs <;> first | exact hb | exact mul_pos hb (Real.rpow_pos_of_pos hγ _)

theorem widthY_pos {block γ : ℝ} (hb : 0 < block) (hγ : 0 < γ) (u n : ℕ) :
    0 < widthY block γ u n := by
  unfold widthY
  split_ifs <;> first | exact hb | exact mul_pos hb (Real.rpow_pos_of_pos hγ _)

theorem widthR_pos {block γ : ℝ} (hb : 0 < block) (hγ : 0 < γ) (u n : ℕ) :
    0 < widthR block γ u n := by
  unfold widthR
  split_ifs <;> first | exact hb | exact mul_pos hb (Real.rpow_pos_of_pos hγ _)

/-- A power of the grading number that is at most the cutoff lies between one and the maximum. -/
theorem pow_between {mx : ℝ} (hm : 0 < mx) {k j : ℕ} (hj : j ≤ k + 1) :
    min 1 mx ≤ (mx ^ (1 / ((k : ℝ) + 1))) ^ (j : ℝ) ∧
      (mx ^ (1 / ((k : ℝ) + 1))) ^ (j : ℝ) ≤ max 1 mx := by
  rw [← Real.rpow_mul hm.le]
  have hk : (0 : ℝ) < (k : ℝ) + 1 := by positivity
  have e0 : 0 ≤ 1 / ((k : ℝ) + 1) * j := by positivity
  have e1 : 1 / ((k : ℝ) + 1) * j ≤ 1 := by
    have : (j : ℝ) ≤ (k : ℝ) + 1 := by exact_mod_cast hj
    rw [one_div, inv_mul_le_iff₀ hk]; linarith
  rcases le_total 1 mx with h | h
  · rw [min_eq_left h, max_eq_right h]
    exact ⟨Real.one_le_rpow h e0, by
      simpa using Real.rpow_le_rpow_of_exponent_le h e1⟩
  · rw [min_eq_right h, max_eq_left h]
    exact ⟨by simpa using Real.rpow_le_rpow_of_exponent_ge hm h e1, Real.rpow_le_one hm.le h e0⟩

/-- The columns: where they begin, that they are symmetric, and how wide they are. -/
theorem columns {size : ℕ} (hs : 0 < size) (hb : size < 2 ^ 31) {block f mx : ℝ} (hbl : 0 < block)
    (h0 : 0 ≤ f) (h1 : f ≤ 1) (hm : 0 < mx) :
    ∃ X : ℕ → ℝ, xValues size block f mx = .ok (some ((List.range size).map X)) ∧
      X 0 = 0 ∧ (∀ m, X m < X (m + 1)) ∧
      (∀ m, m + 1 < size → X (m + 1) - X m = X (size - 1 - m) - X (size - 2 - m)) ∧
      (∀ m, m + 1 < size → block * min 1 mx ≤ X (m + 1) - X m ∧
        X (m + 1) - X m ≤ block * max 1 mx) ∧
      (∃ a b, b < size ∧ ⌊(size : ℝ) * f⌋₊ ≤ b - a + 1 ∧
        ∀ m, a ≤ m → m < b → X (m + 1) - X m = block) := by
  by_cases hr : f = 1 ∨ mx = 1
  · have hw : ∀ m : ℕ, block * ((m + 1 : ℕ) : ℝ) - block * (m : ℝ) = block := by
      intro m; push_cast; ring
    refine ⟨fun m : ℕ => block * (m : ℝ), by unfold xValues; rw [if_pos hr], by simp, ?_, ?_, ?_,
      0, size - 1, by omega, ?_, fun m _ _ => hw m⟩
    · intro m
      have := hw m
      simp only
      linarith
    · intro m hm'
      simp only
      obtain ⟨t, ht⟩ : ∃ t, size = t + 2 + m := ⟨size - 2 - m, by omega⟩
      have e1 : size - 1 - m = t + 1 := by omega
      have e2 : size - 2 - m = t := by omega
      rw [e1, e2, hw, hw]
    · intro m _
      simp only
      rw [hw]
      have := min_le_left 1 mx
      have := le_max_left 1 mx
      constructor <;> nlinarith
    · have hp : (0 : ℝ) < size := by exact_mod_cast hs
      have : ⌊(size : ℝ) * f⌋₊ ≤ size := by
        rw [← Nat.floor_natCast (R := ℝ) size]
        rw [Nat.floor_natCast (R := ℝ) size]
        exact Nat.floor_le_of_le (by nlinarith)
      omega
  · push Not at hr
    obtain ⟨u, k, hsz, hl, -, hx⟩ :=
      xValues_graded (block := block) hs hb h0 (lt_of_le_of_ne h1 hr.1) hm hr.2
    set γ := mx ^ (1 / ((k : ℝ) + 1)) with hγd
    have hγ : 0 < γ := Real.rpow_pos_of_pos hm _
    set W := widthX block γ u k with hW
    have hstep : ∀ m, reach (-(W 0)) W (m + 1) - reach (-(W 0)) W m = W (m + 1) := by
      intro m; simp [reach]
    have hpos : ∀ m, 0 < W m := fun m => widthX_pos hbl hγ u k m
    refine ⟨reach (-(W 0)) W, hx, by simp [reach], ?_, ?_, ?_, k, k + u, by omega, by omega, ?_⟩
    · intro m
      have := hstep m
      have := hpos (m + 1)
      linarith
    · intro m hm'
      obtain ⟨t, ht⟩ : ∃ t, size = t + 2 + m := ⟨size - 2 - m, by omega⟩
      have e1 : size - 1 - m = t + 1 := by omega
      have e2 : size - 2 - m = t := by omega
      rw [e1, e2, hstep, hstep, hW]
      unfold widthX
      by_cases c1 : m + 1 < k + 1
      · rw [if_pos c1, if_neg (by omega), if_neg (by omega)]
        congr 3; omega
      · rw [if_neg c1]
        by_cases c2 : m + 1 < k + 1 + u
        · rw [if_pos c2, if_neg (by omega), if_pos (by omega)]
        · rw [if_neg c2, if_pos (by omega)]
          congr 3; omega
    · intro m hm'
      rw [hstep, hW]
      unfold widthX
      by_cases c1 : m + 1 < k + 1
      · rw [if_pos c1]
        have := pow_between hm (k := k) (j := k + 1 - (m + 1)) (by omega)
        exact ⟨mul_le_mul_of_nonneg_left this.1 hbl.le, mul_le_mul_of_nonneg_left this.2 hbl.le⟩
      · rw [if_neg c1]
        by_cases c2 : m + 1 < k + 1 + u
        · rw [if_pos c2]
          have := min_le_left 1 mx
          have := le_max_left 1 mx
          constructor <;> nlinarith
        · rw [if_neg c2]
          have := pow_between hm (k := k) (j := m + 1 - k - u) (by omega)
          exact ⟨mul_le_mul_of_nonneg_left this.1 hbl.le, mul_le_mul_of_nonneg_left this.2 hbl.le⟩
    · intro m h1' h2'
      rw [hstep, hW]
      unfold widthX
      rw [if_neg (by omega), if_pos (by omega)]

/-- The rows go up. -/
theorem rowsUp {size : ℕ} (hs : 0 < size) (hb : size < 2 ^ 31) {block f mx : ℝ} (hbl : 0 < block)
    (h0 : 0 ≤ f) (h1 : f ≤ 1) (hm : 0 < mx) :
    ∃ Y : ℕ → ℝ, yValues size block f mx = .ok (some ((List.range size).map Y)) ∧
      (∀ n, Y n < Y (n + 1)) ∧
      (f = 1 ∨ mx = 1 → ∀ n : ℕ, Y n = block * (n : ℝ)) := by
  by_cases hr : f = 1 ∨ mx = 1
  · refine ⟨fun n : ℕ => block * (n : ℝ), by unfold yValues; rw [if_pos hr], ?_, fun _ _ => rfl⟩
    intro n
    simp only
    push_cast
    linarith
  · have hr' := hr
    push Not at hr
    obtain ⟨u, k, hsz, -, hy⟩ :=
      yValues_graded (block := block) hs hb h0 (lt_of_le_of_ne h1 hr.1) hm hr.2
    refine ⟨_, hy, ?_, fun h => absurd h hr'⟩
    intro n
    have := widthY_pos hbl (Real.rpow_pos_of_pos hm (1 / ((k : ℝ) + 1))) u (n + 1)
    simp only [reach]
    linarith

/-- The radii go up, from the radius of curvature or above. -/
theorem radiiUp {size : ℕ} (hs : 0 < size) (hb : size < 2 ^ 31) {r0 block f mx : ℝ}
    (hbl : 0 < block) (h0 : 0 ≤ f) (h1 : f ≤ 1) (hm : 0 < mx) :
    ∃ R : ℕ → ℝ, radiusValues size r0 block f mx = .ok (some ((List.range size).map R)) ∧
      r0 ≤ R 0 ∧ (∀ n, R n < R (n + 1)) ∧
      (f = 1 ∨ mx = 1 → ∀ n : ℕ, R n = r0 + block * (n : ℝ)) ∧
      (¬ (f = 1 ∨ mx = 1) → R 0 = r0 + block) := by
  by_cases hr : f = 1 ∨ mx = 1
  · refine ⟨fun n : ℕ => r0 + block * (n : ℝ), ?_, by simp, ?_, fun _ _ => rfl,
      fun h => absurd hr h⟩
    · unfold radiusValues
      rw [if_pos hr, regularRadii_eq]
    · intro n
      simp only
      push_cast
      linarith
  · have hr' := hr
    push Not at hr
    obtain ⟨u, k, hsz, hy⟩ :=
      radiusValues_graded (r0 := r0) (block := block) hs hb h0 (lt_of_le_of_ne h1 hr.1) hm hr.2
    have hz : widthR block (mx ^ (1 / ((k : ℝ) + 1))) u 0 = block := by
      unfold widthR
      split_ifs <;> simp
    refine ⟨_, hy, ?_, ?_, fun h => absurd h hr', fun _ => ?_⟩
    · simp only [reach, hz]; linarith
    · intro n
      have := widthR_pos hbl (Real.rpow_pos_of_pos hm (1 / ((k : ℝ) + 1))) u (n + 1)
      simp only [reach]
      linarith
    · simp only [reach, hz]

theorem xValues_length {size : ℕ} {block f mx : ℝ} {l : List ℝ}
    (h : xValues size block f mx = .ok (some l)) : l.length = size := by
  unfold xValues at h
  split_ifs at h with hr
  · cases h
    simp
  · cases hu : uniformInt size f with
    | throw => rw [hu] at h; cases h
    | ub => rw [hu] at h; cases h
    | ok u =>
      rw [hu] at h
      simp only [Res.bind, Res.ok.injEq] at h
      split at h
      · cases h
      · exact accum_length _ _ _ _ h

theorem yValues_length {size : ℕ} {block f mx : ℝ} {l : List ℝ}
    (h : yValues size block f mx = .ok (some l)) : l.length = size := by
  unfold yValues at h
  split_ifs at h with hr
  · cases h
    simp
  · cases hu : uniformInt size f with
    | throw => rw [hu] at h; cases h
    | ub => rw [hu] at h; cases h
    | ok u =>
      rw [hu] at h
      simp only [Res.bind, Res.ok.injEq] at h
      split at h
      · cases h
      · exact accum_length _ _ _ _ h

theorem radiusValues_length {size : ℕ} {r0 block f mx : ℝ} {l : List ℝ}
    (h : radiusValues size r0 block f mx = .ok (some l)) : l.length = size := by
  unfold radiusValues at h
  split_ifs at h with hr
  · cases h
    rw [regularRadii_eq]
    simp
  · cases hu : uniformUInt size f with
    | throw => rw [hu] at h; cases h
    | ub => rw [hu] at h; cases h
    | ok u =>
      rw [hu] at h
      simp only [Res.bind, Res.ok.injEq] at h
      exact accum_length _ _ _ _ h

theorem node_map {xs ys : List ℝ} (F : ℝ → ℝ → Pt) (n m : ℕ) :
    node (ys.map fun y => xs.map fun x => F x y) n m =
      (ys[n]?).bind fun y => (xs[m]?).map fun x => F x y := by
  unfold node
  rw [List.getElem?_map]
  cases ys[n]? with
  | none => rfl
  | some y => simp

theorem node_range {nr nc : ℕ} (F : ℕ → ℕ → Pt) (n m : ℕ) {q : Pt} :
    node ((List.range nr).map fun n => (List.range nc).map fun m => F n m) n m = some q ↔
      n < nr ∧ m < nc ∧ q = F n m := by
  unfold node
  rw [List.getElem?_map]
  by_cases hn : n < nr
  · rw [List.getElem?_range hn]
    by_cases hm : m < nc
    · simp [hn, hm, eq_comm]
    · simp [hn, hm]
  · rw [List.getElem?_eq_none (by simpa using hn)]
    simp [hn]

/-- A number that is not zero and below a full turn turns something. -/
theorem same_angle {a b : ℝ} (h1 : -(2 * Real.pi) < a - b) (h2 : a - b < 2 * Real.pi)
    (hc : Real.cos a = Real.cos b) (hs : Real.sin a = Real.sin b) : a = b := by
  have : Real.cos (a - b) = 1 := by
    rw [Real.cos_sub, hc, hs]
    have := Real.cos_sq_add_sin_sq b
    nlinarith
  have := (Real.cos_eq_one_iff_of_lt_of_lt h1 h2).1 this
  linarith

end Verif.RoundGrid
