import Verif.Metrics.Spec
import Verif.Curvi.CleanLemmas
import Mathlib.Tactic.Linarith
import Mathlib.Tactic.FieldSimp
import Mathlib.Tactic.NormNum
import Mathlib.Tactic.Positivity
import Mathlib.Tactic.LinearCombination
/-!
# C76, C77: smoothness and curvature of a curvilinear grid
-/
namespace Verif.Metrics
open Verif.Curvi Verif.CurviLine

noncomputable local instance : DecidableEq ℝ := Classical.decEq ℝ

/-! ### The tables -/

theorem pred32_pos {n : Nat} (h : 0 < n) (hb : n < 4294967296) : pred32 n = n - 1 := by
  unfold pred32 u32; omega

theorem filled_numN (a b : Nat) : (filled a b).numN = a := by simp [filled, Grid.numN]
theorem filled_numM (a b : Nat) : (filled a b).numM = b := by simp [filled, Grid.numM]

theorem compute_n (f : Pt ℝ → Pt ℝ → Pt ℝ → ℝ) (g : Grid (Pt ℝ)) (hn : 0 < g.numN) (hb : g.numN < 4294967296) :
    compute f g .n = .ok (mapBlock (filled g.numN g.numM) 1 (g.numN - 1) 0 g.numM
      (fun i j _ => f (g.node (i - 1) j) (g.node i j) (g.node (i + 1) j))) := by
  unfold compute
  rw [pred32_pos hn hb]
  refine forBlock _ 1 (g.numN - 1) 0 g.numM _ (alongN f g) fun i j h h1 h2 _ h4 hs => ?_
  have e1 : h.numN = g.numN := by rw [hs.numN, filled_numN]
  have e2 : h.numM = g.numM := by rw [hs.numM, filled_numM]
  unfold alongN
  rw [getNode_ok (by omega) h4, Res.ok_bind, getNode_ok (by omega) h4, Res.ok_bind, getNode_ok (by omega) h4, Res.ok_bind,
    setNode_ok _ (by omega) (by omega)]

theorem compute_m (f : Pt ℝ → Pt ℝ → Pt ℝ → ℝ) (g : Grid (Pt ℝ)) (hm : 0 < g.numM) (hb : g.numM < 4294967296) :
    compute f g .m = .ok (mapBlock (filled g.numN g.numM) 0 g.numN 1 (g.numM - 1)
      (fun i j _ => f (g.node i (j - 1)) (g.node i j) (g.node i (j + 1)))) := by
  unfold compute
  rw [pred32_pos hm hb]
  refine forBlock _ 0 g.numN 1 (g.numM - 1) _ (alongM f g) fun i j h _ h2 h3 h4 hs => ?_
  have e1 : h.numN = g.numN := by rw [hs.numN, filled_numN]
  have e2 : h.numM = g.numM := by rw [hs.numM, filled_numM]
  unfold alongM
  rw [getNode_ok h2 (by omega), Res.ok_bind, getNode_ok h2 (by omega), Res.ok_bind, getNode_ok h2 (by omega), Res.ok_bind,
    setNode_ok _ (by omega) (by omega)]

theorem entries_table (c : Grid ℝ) {i j : Nat} (hi : i < c.rows) (hj : j < c.cols) :
    (entries c)[i * c.cols + j]? = some (c.cell i j) := by
  have hlt : i * c.cols + j < c.rows * c.cols := by
    have : (i + 1) * c.cols ≤ c.rows * c.cols := Nat.mul_le_mul_right _ hi
    rw [Nat.add_mul, Nat.one_mul] at this
    omega
  have hp : 0 < c.cols := by omega
  unfold entries
  rw [List.getElem?_map, List.getElem?_range hlt]
  simp only [Option.map_some, Option.some.injEq]
  rw [show i * c.cols + j = j + c.cols * i by rw [Nat.mul_comm]; omega, Nat.add_mul_div_left _ _ hp, Nat.add_mul_mod_self_left,
    Nat.div_eq_of_lt hj, Nat.mod_eq_of_lt hj, Nat.zero_add]

theorem acrossM : decide ((0 : Int) = 1) = decide (Dir.m = Dir.n) := by decide
theorem acrossN : decide ((1 : Int) = 1) = decide (Dir.n = Dir.n) := by decide
theorem direction_zero : direction 0 = .ok .m := rfl
theorem direction_one : direction 1 = .ok .n := rfl

theorem entries_block (N M a b c d : Nat) (φ : Nat → Nat → ℝ → ℝ) {i j : Nat} (hi : i < N) (hj : j < M) :
    (entries (mapBlock (filled N M) a b c d φ))[i * M + j]? =
      some (if (a ≤ i ∧ i < b) ∧ (c ≤ j ∧ j < d) then φ i j missingD else missingD) := by
  have h := entries_table (mapBlock (filled N M) a b c d φ) (i := i) (j := j) hi hj
  have e : (mapBlock (filled N M) a b c d φ).cell i j = (mapBlock (filled N M) a b c d φ).node i j := rfl
  rw [e, mapBlock_node] at h
  exact h

theorem table_ok (f : Pt ℝ → Pt ℝ → Pt ℝ → ℝ) (g : Grid (Pt ℝ)) (hn : 0 < g.numN) (hm : 0 < g.numM)
    (bn : g.numN < 4294967296) (bm : g.numM < 4294967296) (d : Dir) :
    ∃ c, compute f g d = .ok c ∧ Table g (d = .n) f (entries c) := by
  cases d with
  | n =>
    refine ⟨_, compute_n f g hn bn, by simp [entries, mapBlock, filled], ?_⟩
    intro i j hi hj
    rw [entries_block _ _ _ _ _ _ _ hi hj]
    simp only [decide_true, if_true, Option.some.injEq]
    by_cases h : 0 < i ∧ i + 1 < g.numN
    · rw [if_pos (by omega), if_pos h]
    · rw [if_neg (by omega), if_neg h, missingD]
  | m =>
    refine ⟨_, compute_m f g hm bm, by simp [entries, mapBlock, filled], ?_⟩
    intro i j hi hj
    rw [entries_block _ _ _ _ _ _ _ hi hj]
    simp only [reduceCtorEq, decide_false, Bool.false_eq_true, if_false, Option.some.injEq]
    by_cases h : 0 < j ∧ j + 1 < g.numM
    · rw [if_pos (by omega), if_pos h]
    · rw [if_neg (by omega), if_neg h, missingD]

/-! ### The values -/

theorem valid_iff (p : Pt ℝ) : valid p = true ↔ Set p := by
  simp [valid, Set]

theorem valid3 (a b c : Pt ℝ) : (valid a && valid b && valid c) = true ↔ Set a ∧ Set b ∧ Set c := by
  rw [Bool.and_eq_true, Bool.and_eq_true, valid_iff, valid_iff, valid_iff]; tauto

theorem squared_eq (p q : Pt ℝ) : squared p q = distance p q ^ 2 := by
  unfold squared distance
  rw [Real.sq_sqrt (by positivity)]
  ring

theorem distance_nonneg (p q : Pt ℝ) : 0 ≤ distance p q := Real.sqrt_nonneg _

theorem distance_comm (p q : Pt ℝ) : distance p q = distance q p := by
  unfold distance; congr 1; ring

theorem uneven_smoothness (a b c : Pt ℝ) : Uneven a b c (nodeSmoothness a b c) := by
  unfold nodeSmoothness
  by_cases hv : Set a ∧ Set b ∧ Set c
  · left
    rw [if_pos ((valid3 a b c).2 hv)]
    refine ⟨hv.1, hv.2.1, hv.2.2, ?_⟩
    rw [squared_eq, squared_eq]
    have h1 := distance_nonneg a b
    have h2 := distance_nonneg b c
    by_cases h : distance a b ^ 2 ≠ 0 ∧ distance b c ^ 2 ≠ 0
    · left
      have p1 : 0 < distance a b := lt_of_le_of_ne h1 (fun e => h.1 (by rw [← e]; ring))
      have p2 : 0 < distance b c := lt_of_le_of_ne h2 (fun e => h.2 (by rw [← e]; ring))
      refine ⟨p1, p2, ?_⟩
      rw [if_pos h, ← div_pow, Real.sqrt_sq (by positivity)]
      unfold atLeastOne
      by_cases hl : distance b c < distance a b
      · rw [if_pos (by rw [div_lt_one p1]; exact hl), max_eq_left hl.le, min_eq_right hl.le, one_div_div]
      · rw [if_neg (by rw [div_lt_one p1]; exact hl), max_eq_right (not_lt.1 hl), min_eq_left (not_lt.1 hl)]
    · right
      rw [if_neg h]
      refine ⟨?_, rfl⟩
      by_contra hc
      push Not at hc
      exact h ⟨pow_ne_zero 2 hc.1, pow_ne_zero 2 hc.2⟩
  · right
    rw [if_neg (by rw [valid3]; exact hv)]
    exact ⟨hv, rfl⟩

theorem Uneven.unique {a b c : Pt ℝ} {v w : ℝ} (h : Uneven a b c v) (k : Uneven a b c w) : v = w := by
  rcases h with ⟨h1, h2, h3, h⟩ | ⟨h1, h⟩ <;> rcases k with ⟨k1, k2, k3, k⟩ | ⟨k1, k⟩
  · rcases h with ⟨x1, x2, h⟩ | ⟨x1, h⟩ <;> rcases k with ⟨y1, y2, k⟩ | ⟨y1, k⟩
    · rw [h, k]
    · rcases y1 with y1 | y1 <;> linarith
    · rcases x1 with x1 | x1 <;> linarith
    · rw [h, k]
  · exact absurd ⟨h1, h2, h3⟩ k1
  · exact absurd ⟨k1, k2, k3⟩ h1
  · rw [h, k]

/-- C76: the smoothness is written for every node, in the order of the nodes: where the node has two neighbours in the
direction asked for, the longer of the two steps over the shorter one; elsewhere the missing value. -/
theorem smoothness_exact (g : Grid (Pt ℝ)) (hg : WF g) (bn : g.numN < 4294967296) (bm : g.numM < 4294967296) (d : Int)
    (hd : d = 0 ∨ d = 1) :
    ∃ r f, computeSmoothness g d = .ok r ∧ Table g (d = 1) f r ∧ ∀ a b c, Uneven a b c (f a b c) := by
  have h1 := hg.two_le_numN
  have h2 := hg.two_le_numM
  rcases hd with rfl | rfl
  · obtain ⟨c, h, t⟩ := table_ok nodeSmoothness g (by omega) (by omega) bn bm .m
    refine ⟨entries c, nodeSmoothness, ?_, by rw [acrossM]; exact t, uneven_smoothness⟩
    unfold computeSmoothness
    rw [direction_zero, Res.ok_bind, h, Res.ok_bind]
  · obtain ⟨c, h, t⟩ := table_ok nodeSmoothness g (by omega) (by omega) bn bm .n
    refine ⟨entries c, nodeSmoothness, ?_, by rw [acrossN]; exact t, uneven_smoothness⟩
    unfold computeSmoothness
    rw [direction_one, Res.ok_bind, h, Res.ok_bind]

/-- C76: a value is at least one; it is one exactly when the steps are equally long or one of them has no length; and it
does not depend on the direction in which the nodes are numbered. -/
theorem smoothness_meaning (a b c : Pt ℝ) (ha : Set a) (hb : Set b) (hc : Set c) :
    1 ≤ nodeSmoothness a b c ∧
    (nodeSmoothness a b c = 1 ↔ distance a b = distance b c ∨ distance a b = 0 ∨ distance b c = 0) ∧
    nodeSmoothness c b a = nodeSmoothness a b c := by
  have hu := uneven_smoothness a b c
  have hr : Uneven a b c (nodeSmoothness c b a) := by
    have := uneven_smoothness c b a
    rcases this with ⟨-, -, -, h⟩ | ⟨h, -⟩
    · left
      refine ⟨ha, hb, hc, ?_⟩
      rw [distance_comm c b, distance_comm b a] at h
      rcases h with ⟨x, y, h⟩ | ⟨x, h⟩
      · exact Or.inl ⟨y, x, by rw [h, max_comm, min_comm]⟩
      · exact Or.inr ⟨x.symm, h⟩
    · exact absurd ⟨hc, hb, ha⟩ h
  refine ⟨?_, ?_, hr.unique hu⟩
  · rcases hu with ⟨-, -, -, ⟨x, y, h⟩ | ⟨-, h⟩⟩ | ⟨h, -⟩
    · rw [h, le_div_iff₀ (lt_min x y), one_mul]
      exact min_le_max
    · rw [h]
    · exact absurd ⟨ha, hb, hc⟩ h
  · rcases hu with ⟨-, -, -, ⟨x, y, h⟩ | ⟨z, h⟩⟩ | ⟨h, -⟩
    · rw [h, div_eq_one_iff_eq (lt_min x y).ne']
      constructor
      · intro e
        left
        rcases le_total (distance a b) (distance b c) with l | l
        · rw [max_eq_right l, min_eq_left l] at e; exact e.symm
        · rw [max_eq_left l, min_eq_right l] at e; exact e
      · rintro (e | e | e)
        · rw [e, max_self, min_self]
        · exact absurd e x.ne'
        · exact absurd e y.ne'
    · exact iff_of_true h (Or.inr z)
    · exact absurd ⟨ha, hb, hc⟩ h

/-! ### Curvature -/

/-- The curvature is written for every node in the same way, and never depends on anything but the node and its two
neighbours. -/
theorem curvature_table (g : Grid (Pt ℝ)) (hg : WF g) (bn : g.numN < 4294967296) (bm : g.numM < 4294967296) (d : Int)
    (hd : d = 0 ∨ d = 1) :
    ∃ r, computeCurvature g d = .ok r ∧ Table g (d = 1) nodeCurvature r := by
  have h1 := hg.two_le_numN
  have h2 := hg.two_le_numM
  rcases hd with rfl | rfl
  · obtain ⟨c, h, t⟩ := table_ok nodeCurvature g (by omega) (by omega) bn bm .m
    refine ⟨entries c, ?_, by rw [acrossM]; exact t⟩
    unfold computeCurvature
    rw [direction_zero, Res.ok_bind, h, Res.ok_bind]
  · obtain ⟨c, h, t⟩ := table_ok nodeCurvature g (by omega) (by omega) bn bm .n
    refine ⟨entries c, ?_, by rw [acrossN]; exact t⟩
    unfold computeCurvature
    rw [direction_one, Res.ok_bind, h, Res.ok_bind]

/-- A direction other than 0 and 1 is refused. -/
theorem direction_refused (g : Grid (Pt ℝ)) (d : Int) (h0 : d ≠ 0) (h1 : d ≠ 1) :
    computeSmoothness g d = .throw ∧ computeCurvature g d = .throw := by
  have e : direction d = .throw := by unfold direction; rw [if_neg h0, if_neg h1]
  constructor
  · unfold computeSmoothness; rw [e]; rfl
  · unfold computeCurvature; rw [e]; rfl

theorem curvature_eq (a b c : Pt ℝ) (ha : Set a) (hb : Set b) (hc : Set c) :
    nodeCurvature a b c = 1000 * |1 / notZero (rawRadius a b c)| := by
  unfold nodeCurvature
  rw [if_pos ((valid3 a b c).2 ⟨ha, hb, hc⟩)]

/-- Where a node is missing the value is missing. -/
theorem curvature_missing (a b c : Pt ℝ) (h : ¬ (Set a ∧ Set b ∧ Set c)) : nodeCurvature a b c = -999 := by
  unfold nodeCurvature
  rw [if_neg (by rw [valid3]; exact h), missingD]

/-- C77, in part: three nodes on a line have the smallest curvature that is ever reported for a turn of a radius below
999999. -/
theorem curvature_straight (a b c : Pt ℝ) (ha : Set a) (hb : Set b) (hc : Set c)
    (hl : (b.x - a.x) * (c.y - b.y) = (b.y - a.y) * (c.x - b.x)) : nodeCurvature a b c = 1000 / 999999 := by
  rw [curvature_eq a b c ha hb hc]
  have h0 : area2 a b c = 0 := by unfold area2; linarith
  unfold rawRadius
  rw [if_neg (by simp [h0])]
  unfold notZero
  rw [if_neg (by norm_num), abs_of_pos (by norm_num)]
  norm_num

/-- C77, in part: on a circle of radius `R` about `o`, with equal angles between the nodes whose cosine is `k`, the value
is not `1000 / R` but `1000 / (R √(2 + 2 k))`: close to half of it when the nodes are close to each other. -/
theorem curvature_on_circle_partial (o : Pt ℝ) (R x y k s : ℝ) (hR : 0 < R) (hxy : x ^ 2 + y ^ 2 = 1) (hks : k ^ 2 + s ^ 2 = 1)
    (hs : s ≠ 0) (a b c : Pt ℝ) (ha : Set a) (hb : Set b) (hc : Set c)
    (ea : a = ⟨o.x + R * (x * k + y * s), o.y + R * (y * k - x * s)⟩)
    (eb : b = ⟨o.x + R * x, o.y + R * y⟩)
    (ec : c = ⟨o.x + R * (x * k - y * s), o.y + R * (y * k + x * s)⟩) :
    nodeCurvature a b c = 1000 / (R * √(2 + 2 * k)) := by
  rw [curvature_eq a b c ha hb hc]
  have hk1 : k < 1 := by
    by_contra h
    have h1 : 1 ≤ k := not_lt.1 h
    have : 0 < s ^ 2 := by positivity
    nlinarith
  have hk2 : -1 < k := by
    by_contra h
    have h1 : k ≤ -1 := not_lt.1 h
    have : 0 < s ^ 2 := by positivity
    nlinarith
  have harea : area2 a b c = 2 * R ^ 2 * s * (1 - k) := by
    unfold area2
    rw [ea, eb, ec]
    simp only
    linear_combination (2 * R ^ 2 * s * (1 - k)) * hxy
  have hdot : (c.x - b.x) * (c.x - a.x) + (c.y - b.y) * (c.y - a.y) = 2 * R ^ 2 * s ^ 2 := by
    rw [ea, eb, ec]
    simp only
    linear_combination (2 * R ^ 2 * s ^ 2) * hxy
  have hsq : squared a b = R ^ 2 * (2 - 2 * k) := by
    unfold squared
    rw [ea, eb]
    simp only
    linear_combination (R ^ 2 * (1 - k) ^ 2 + R ^ 2 * s ^ 2) * hxy + R ^ 2 * hks
  have hne : area2 a b c ≠ 0 := by
    rw [harea]
    have : 1 - k ≠ 0 := by linarith
    positivity
  have hrad : rawRadius a b c = R * √(2 + 2 * k) := by
    unfold rawRadius
    rw [if_pos hne, hdot, harea, hsq, Real.sqrt_mul (by positivity), Real.sqrt_sq hR.le]
    have e : 2 * R ^ 2 * s ^ 2 / (2 * R ^ 2 * s * (1 - k)) = s / (1 - k) := by
      have : 1 - k ≠ 0 := by linarith
      field_simp
    rw [e, mul_assoc]
    congr 1
    rw [abs_div, abs_of_pos (by linarith : 0 < 1 - k)]
    have h2 : √(2 + 2 * k) = √(2 - 2 * k) * (|s| / (1 - k)) := by
      have hp : 0 ≤ √(2 - 2 * k) * (|s| / (1 - k)) := by
        have : 0 < 1 - k := by linarith
        positivity
      rw [Real.sqrt_eq_iff_mul_self_eq (by linarith) hp]
      have hq : √(2 - 2 * k) * √(2 - 2 * k) = 2 - 2 * k := Real.mul_self_sqrt (by linarith)
      have hss : |s| * |s| = s ^ 2 := by rw [abs_mul_abs_self]; ring
      have h1k : (1 - k) ≠ 0 := by linarith
      have : √(2 - 2 * k) * (|s| / (1 - k)) * (√(2 - 2 * k) * (|s| / (1 - k))) =
          (√(2 - 2 * k) * √(2 - 2 * k)) * (|s| * |s|) / (1 - k) ^ 2 := by
        field_simp
      rw [this, hq, hss, eq_div_iff (pow_ne_zero 2 h1k)]
      have hs2 : s ^ 2 = (1 - k) * (1 + k) := by linarith
      rw [hs2]
      ring
    rw [h2]
  have hpos : 0 < R * √(2 + 2 * k) := mul_pos hR (Real.sqrt_pos.2 (by linarith))
  rw [hrad]
  unfold notZero
  rw [if_neg hpos.ne', abs_of_pos (by positivity)]
  ring

/-! ### The hypotheses are met -/

/-- A grid of three by three nodes. -/
def nine : Grid (Pt ℝ) := { rows := 3, cols := 3, cell := fun i j => ⟨(j : ℝ) ^ 2, i⟩ }

example : ∃ r f, computeSmoothness nine 0 = .ok r ∧ Table nine (decide ((0 : Int) = 1)) f r ∧ ∀ a b c, Uneven a b c (f a b c) :=
  smoothness_exact nine ⟨by decide, by decide⟩ (by decide) (by decide) 0 (Or.inl rfl)

example : ∃ r, computeCurvature nine 1 = .ok r ∧ Table nine (decide ((1 : Int) = 1)) nodeCurvature r :=
  curvature_table nine ⟨by decide, by decide⟩ (by decide) (by decide) 1 (Or.inr rfl)

/-- Steps of length 1 and 3. -/
example : nodeSmoothness ⟨0, 0⟩ ⟨1, 0⟩ ⟨4, 0⟩ = 3 := by
  have hs : ∀ x : ℝ, 0 ≤ x → Set ⟨x, 0⟩ := fun x hx => ⟨by simp only; linarith, by norm_num⟩
  rcases uneven_smoothness ⟨0, 0⟩ ⟨1, 0⟩ ⟨4, 0⟩ with ⟨-, -, -, ⟨-, -, h⟩ | ⟨h, -⟩⟩ | ⟨h, -⟩
  · rw [h]
    unfold distance
    norm_num
    rw [show (9 : ℝ) = 3 ^ 2 by norm_num, Real.sqrt_sq (by norm_num)]
  · exfalso
    unfold distance at h
    norm_num at h
  · exact absurd ⟨hs 0 (by norm_num), hs 1 (by norm_num), hs 4 (by norm_num)⟩ h

/-- A right angle on a circle of radius 5. -/
example : nodeCurvature ⟨0, -5⟩ ⟨5, 0⟩ ⟨0, 5⟩ = 1000 / (5 * √2) := by
  have := curvature_on_circle_partial ⟨0, 0⟩ 5 1 0 0 1 (by norm_num) (by norm_num) (by norm_num) (by norm_num) ⟨0, -5⟩ ⟨5, 0⟩ ⟨0, 5⟩
    ⟨by norm_num, by norm_num⟩ ⟨by norm_num, by norm_num⟩ ⟨by norm_num, by norm_num⟩ (by norm_num) (by norm_num) (by norm_num)
  simpa using this

end Verif.Metrics
