import Verif.BBox.Model
import Mathlib.Tactic.Linarith
import Mathlib.Order.Fin.Basic
/-!
# C32: bounding boxes are tight and merge correctly
-/
namespace Verif.BBox
variable {K : Type} [LinearOrder K]

/-- The set of points of a box, stated without the model's `contains`. -/
def Mem (p : Pt K) (b : Box K) : Prop := b.lo.x ≤ p.x ∧ p.x ≤ b.hi.x ∧ b.lo.y ≤ p.y ∧ p.y ≤ b.hi.y

/-- The box has a point. -/
def Nonempty (b : Box K) : Prop := b.lo.x ≤ b.hi.x ∧ b.lo.y ≤ b.hi.y

/-- `b` is the least box among those satisfying `P`. -/
def Least (P : Box K → Prop) (b : Box K) : Prop := P b ∧ ∀ c, P c → ∀ p, Mem p b → Mem p c

theorem contains_iff (b : Box K) (p : Pt K) : contains b p = true ↔ Mem p b := by
  simp [contains, Mem, and_assoc]

theorem nonempty_iff (b : Box K) : Nonempty b ↔ ∃ p, Mem p b := by
  constructor
  · rintro ⟨h1, h2⟩
    exact ⟨b.lo, le_refl _, h1, le_refl _, h2⟩
  · rintro ⟨p, h1, h2, h3, h4⟩
    exact ⟨le_trans h1 h2, le_trans h3 h4⟩

theorem stdMin_eq (a b : K) : stdMin a b = min a b := by
  unfold stdMin; split
  · rw [min_eq_right (le_of_lt ‹_›)]
  · rw [min_eq_left (not_lt.1 ‹_›)]

theorem stdMax_eq (a b : K) : stdMax a b = max a b := by
  unfold stdMax; split
  · rw [max_eq_right (le_of_lt ‹_›)]
  · rw [max_eq_left (not_lt.1 ‹_›)]

/-- Two boxes that have points overlap precisely when they share a point. -/
theorem overlaps_iff_common_point (b c : Box K) (hb : Nonempty b) (hc : Nonempty c) :
    overlaps b c = true ↔ ∃ p, Mem p b ∧ Mem p c := by
  unfold overlaps
  constructor
  · intro h
    split at h
    · simp at h
    · rename_i hn
      simp only [not_or, not_lt] at hn
      obtain ⟨h1, h2, h3, h4⟩ := hn
      refine ⟨⟨max b.lo.x c.lo.x, max b.lo.y c.lo.y⟩, ⟨le_max_left _ _, max_le hb.1 h1, le_max_left _ _, max_le hb.2 h3⟩,
        ⟨le_max_right _ _, max_le h2 hc.1, le_max_right _ _, max_le h4 hc.2⟩⟩
  · rintro ⟨p, ⟨a1, a2, a3, a4⟩, ⟨c1, c2, c3, c4⟩⟩
    rw [if_neg]
    simp only [not_or, not_lt]
    exact ⟨le_trans c1 a2, le_trans a1 c2, le_trans c3 a4, le_trans a3 c4⟩

/-- Overlapping is symmetric, for all boxes. -/
theorem overlaps_symm (b c : Box K) : overlaps b c = overlaps c b := by
  unfold overlaps
  congr 1
  exact propext ⟨by rintro (h | h | h | h) <;> simp [h], by rintro (h | h | h | h) <;> simp [h]⟩

/-- Merging two boxes that have points gives the least box containing both. -/
theorem merge_least (b c : Box K) (hb : Nonempty b) (hc : Nonempty c) :
    Least (fun d => (∀ p, Mem p b → Mem p d) ∧ (∀ p, Mem p c → Mem p d)) (merge b c) := by
  simp only [Least, merge, stdMin_eq, stdMax_eq]
  refine ⟨⟨?_, ?_⟩, ?_⟩
  · rintro p ⟨h1, h2, h3, h4⟩
    exact ⟨(min_le_left _ _).trans h1, h2.trans (le_max_left _ _), (min_le_left _ _).trans h3, h4.trans (le_max_left _ _)⟩
  · rintro p ⟨h1, h2, h3, h4⟩
    exact ⟨(min_le_right _ _).trans h1, h2.trans (le_max_right _ _), (min_le_right _ _).trans h3,
      h4.trans (le_max_right _ _)⟩
  · rintro d ⟨db, dc⟩ p ⟨h1, h2, h3, h4⟩
    have b1 := db b.lo ⟨le_refl _, hb.1, le_refl _, hb.2⟩
    have b2 := db b.hi ⟨hb.1, le_refl _, hb.2, le_refl _⟩
    have c1 := dc c.lo ⟨le_refl _, hc.1, le_refl _, hc.2⟩
    have c2 := dc c.hi ⟨hc.1, le_refl _, hc.2, le_refl _⟩
    exact ⟨(le_min b1.1 c1.1).trans h1, h2.trans (max_le b2.2.1 c2.2.1), (le_min b1.2.2.1 c1.2.2.1).trans h3,
      h4.trans (max_le b2.2.2.2 c2.2.2.2)⟩

/-- The box of two points is the least box containing both, whatever their order. -/
theorem ofTwo_least (p q : Pt K) :
    Least (fun d => Mem p d ∧ Mem q d) (ofTwo p q) ∧ ofTwo p q = ofTwo q p := by
  constructor
  · simp only [Least, ofTwo, stdMin_eq, stdMax_eq]
    refine ⟨⟨⟨min_le_left _ _, le_max_left _ _, min_le_left _ _, le_max_left _ _⟩,
      ⟨min_le_right _ _, le_max_right _ _, min_le_right _ _, le_max_right _ _⟩⟩, ?_⟩
    rintro d ⟨⟨a1, a2, a3, a4⟩, ⟨c1, c2, c3, c4⟩⟩ r ⟨h1, h2, h3, h4⟩
    exact ⟨(le_min a1 c1).trans h1, h2.trans (max_le a2 c2), (le_min a3 c3).trans h3, h4.trans (max_le a4 c4)⟩
  · simp only [ofTwo, stdMin_eq, stdMax_eq, min_comm, max_comm]

section
variable [BoundedOrder K] (valid : Pt K → Bool)

omit [BoundedOrder K] in
theorem foldl_lo_hi (ps : List (Pt K)) (b : Box K) :
    (∀ c : Box K, (c.lo.x ≤ (ps.foldl (grow valid) b).lo.x ↔ c.lo.x ≤ b.lo.x ∧ ∀ p ∈ ps, valid p → c.lo.x ≤ p.x) ∧
      (c.lo.y ≤ (ps.foldl (grow valid) b).lo.y ↔ c.lo.y ≤ b.lo.y ∧ ∀ p ∈ ps, valid p → c.lo.y ≤ p.y) ∧
      ((ps.foldl (grow valid) b).hi.x ≤ c.hi.x ↔ b.hi.x ≤ c.hi.x ∧ ∀ p ∈ ps, valid p → p.x ≤ c.hi.x) ∧
      ((ps.foldl (grow valid) b).hi.y ≤ c.hi.y ↔ b.hi.y ≤ c.hi.y ∧ ∀ p ∈ ps, valid p → p.y ≤ c.hi.y)) := by
  induction ps generalizing b with
  | nil => simp
  | cons p ps ih =>
    intro c
    have h := ih (grow valid b p) c
    simp only [List.foldl_cons, List.mem_cons, forall_eq_or_imp]
    rw [h.1, h.2.1, h.2.2.1, h.2.2.2]
    unfold grow
    by_cases hv : valid p
    · simp only [hv, if_true, stdMin_eq, stdMax_eq, le_min_iff, max_le_iff, and_assoc,
        forall_const, and_self]
    · simp [hv]

/-- The bounding box of a list of points with at least one valid point contains every valid point
and is the least such box. -/
theorem box_of_points_least (ps : List (Pt K)) (h : ∃ p ∈ ps, valid p) :
    ∃ b, reset valid ps = .ok b ∧ Least (fun d => ∀ p ∈ ps, valid p → Mem p d) b ∧ Nonempty b := by
  obtain ⟨q, hq, hv⟩ := h
  have hl : 0 < ps.length := List.length_pos_of_mem hq
  have hr : reset valid ps = .ok (ps.foldl (grow valid) inverted) := by
    unfold reset resetSlice
    rw [if_pos hl, if_neg (by omega), if_neg (by omega)]
    have : ps.length - 1 + 1 = ps.length := by omega
    rw [this, List.take_length, List.drop_zero]
  have hf := foldl_lo_hi valid ps inverted
  have hmem : ∀ p ∈ ps, valid p → Mem p (ps.foldl (grow valid) inverted) := by
    intro p hp hpv
    have := hf (ps.foldl (grow valid) inverted)
    exact ⟨(this.1.1 (le_refl _)).2 p hp hpv, (this.2.2.1.1 (le_refl _)).2 p hp hpv, (this.2.1.1 (le_refl _)).2 p hp hpv,
      (this.2.2.2.1 (le_refl _)).2 p hp hpv⟩
  refine ⟨_, hr, ⟨hmem, ?_⟩, (nonempty_iff _).2 ⟨q, hmem q hq hv⟩⟩
  rintro c hc r ⟨h1, h2, h3, h4⟩
  have := hf c
  exact ⟨(this.1.2 ⟨le_top, fun p hp hpv => (hc p hp hpv).1⟩).trans h1,
    h2.trans (this.2.2.1.2 ⟨bot_le, fun p hp hpv => (hc p hp hpv).2.1⟩),
    (this.2.1.2 ⟨le_top, fun p hp hpv => (hc p hp hpv).2.2.1⟩).trans h3,
    h4.trans (this.2.2.2.2 ⟨bot_le, fun p hp hpv => (hc p hp hpv).2.2.2⟩)⟩

/-- The box of no points at all is the whole plane; the box of points that are all invalid has no
point (provided there are two different coordinates). -/
theorem box_without_valid_points [Nontrivial K] (ps : List (Pt K)) (h : ∀ p ∈ ps, ¬ valid p) (r : Pt K) :
    ∃ b, reset valid ps = .ok b ∧ (Mem r b ↔ ps = []) := by
  cases ps with
  | nil => exact ⟨whole, rfl, by simp [Mem, whole]⟩
  | cons p ps =>
    have hr : reset valid (p :: ps) = .ok ((p :: ps).foldl (grow valid) inverted) := by
      unfold reset resetSlice
      simp
    have hid : ∀ (l : List (Pt K)) (b : Box K), (∀ p ∈ l, ¬ valid p) → l.foldl (grow valid) b = b := by
      intro l
      induction l with
      | nil => intros; rfl
      | cons p l ih =>
        intro b hb
        rw [List.foldl_cons, ih _ (fun q hq => hb q (List.mem_cons_of_mem _ hq))]
        simp [grow, hb p List.mem_cons_self]
    refine ⟨inverted, by rw [hr, hid _ _ h], ?_⟩
    simp only [Mem, inverted, reduceCtorEq, iff_false, not_and]
    intro h1 h2
    exact absurd (h1.trans h2) (not_le.2 bot_lt_top)

/-- The box of a joined list is the merge of the two boxes. -/
theorem merge_of_boxes (ps qs : List (Pt K)) (hp : ps ≠ []) (hq : qs ≠ []) :
    ∃ b c, reset valid ps = .ok b ∧ reset valid qs = .ok c ∧ reset valid (ps ++ qs) = .ok (merge b c) := by
  have hr : ∀ l : List (Pt K), l ≠ [] → reset valid l = .ok (l.foldl (grow valid) inverted) := by
    intro l hl
    have : 0 < l.length := List.length_pos_iff.2 hl
    unfold reset resetSlice
    rw [if_pos this, if_neg (by omega), if_neg (by omega), show l.length - 1 + 1 = l.length by omega, List.take_length,
      List.drop_zero]
  refine ⟨_, _, hr ps hp, hr qs hq, ?_⟩
  rw [hr _ (by simp [hp]), List.foldl_append]
  congr 1
  generalize ps.foldl (grow valid) inverted = b
  have key : ∀ (l : List (Pt K)) (b c : Box K), l.foldl (grow valid) (merge b c) = merge b (l.foldl (grow valid) c) := by
    intro l
    induction l with
    | nil => intros; rfl
    | cons p l ih =>
      intro b c
      rw [List.foldl_cons, List.foldl_cons, ← ih]
      congr 1
      unfold grow
      split
      · simp [merge, stdMin_eq, stdMax_eq, min_assoc, max_assoc]
      · rfl
  rw [← key]
  congr 1
  simp [merge, inverted, stdMin_eq, stdMax_eq]

/-- The "non overlapping" box overlaps the default box: `Overlaps` only makes sense for boxes that
have points. -/
theorem non_overlapping_box_overlaps : overlaps (inverted : Box K) whole = true := by
  simp [overlaps, inverted, whole]

end

/-- Extending by a nonnegative factor never loses a point. -/
theorem extend_contains (f : ℚ) (hf : 0 ≤ f) (b : Box ℚ) (p : Pt ℚ) (h : Mem p b) : Mem p (extend f b) := by
  obtain ⟨h1, h2, h3, h4⟩ := h
  have w : 0 ≤ (b.hi.x - b.lo.x) * f := mul_nonneg (by linarith) hf
  have v : 0 ≤ (b.hi.y - b.lo.y) * f := mul_nonneg (by linarith) hf
  exact ⟨by simp only [extend]; linarith, by simp only [extend]; linarith, by simp only [extend]; linarith,
    by simp only [extend]; linarith⟩

/-! ### Concrete cases -/

/-- Three points on a 10 by 10 raster, the second invalid. -/
def pts : List (Pt (Fin 10)) := [⟨3, 4⟩, ⟨9, 9⟩, ⟨5, 2⟩]

example : ∃ p ∈ pts, (fun q : Pt (Fin 10) => decide (q.x ≠ 9)) p = true := by decide
example : reset (fun q : Pt (Fin 10) => decide (q.x ≠ 9)) pts = .ok ⟨⟨3, 2⟩, ⟨5, 4⟩⟩ := by decide
example : Nonempty (⟨⟨3, 2⟩, ⟨5, 4⟩⟩ : Box (Fin 10)) ∧ overlaps (⟨⟨3, 2⟩, ⟨5, 4⟩⟩ : Box (Fin 10)) ⟨⟨5, 4⟩, ⟨7, 7⟩⟩ = true := by
  exact ⟨⟨by decide, by decide⟩, by decide⟩

end Verif.BBox
