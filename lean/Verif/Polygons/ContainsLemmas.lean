import Verif.Polygons.ContainsSpec
import Mathlib.Tactic.Linarith
import Mathlib.Tactic.Ring
import Mathlib.Tactic.FieldSimp
/-!
# Lemmas on containment
-/
namespace Verif.Polygons

theorem isEqual_zero (v : ℚ) : isEqual v 0 = decide (v = 0) := by
  unfold isEqual
  have : ¬ (|v - 0| < tol * min |v| |(0 : ℚ)|) := by
    rw [abs_zero, min_eq_right (abs_nonneg _), mul_zero]
    exact not_lt.2 (abs_nonneg _)
  simp [this]

theorem cross_eq (a b p : Pt) : crossProduct a b a p = area2 a b p := rfl

/-- The segment test of the code for a segment of positive length. -/
theorem onSegment_iff {a b p : Pt} (hab : a ≠ b) : onSegment a b p = true ↔ OnSegment a b p := by
  unfold onSegment
  rw [isEqual_zero, cross_eq]
  simp only [Bool.and_eq_true, decide_eq_true_eq, lambda, abs_pos, sub_ne_zero, ge_iff_le, gt_iff_lt]
  constructor
  · rintro ⟨hc, ⟨⟨h1, h2⟩, h3⟩, h4⟩
    unfold area2 at hc
    by_cases hx : b.x = a.x
    · have hy : b.y ≠ a.y := by
        intro hy; apply hab; cases a; cases b; simp_all
      rw [if_pos hy] at h3 h4
      have hd : b.y - a.y ≠ 0 := sub_ne_zero.2 hy
      refine ⟨(p.y - a.y) / (b.y - a.y), h3, h4, ?_, ?_⟩
      · rw [hx] at hc ⊢
        have : (b.y - a.y) * (p.x - a.x) = 0 := by linarith
        have : p.x - a.x = 0 := by
          rcases mul_eq_zero.1 this with h | h
          · exact absurd h hd
          · exact h
        linarith
      · field_simp; ring
    · rw [if_pos hx] at h1 h2
      have hd : b.x - a.x ≠ 0 := sub_ne_zero.2 hx
      refine ⟨(p.x - a.x) / (b.x - a.x), h1, h2, by field_simp; ring, ?_⟩
      field_simp
      linarith
  · rintro ⟨t, h1, h2, h3, h4⟩
    have ex : p.x - a.x = t * (b.x - a.x) := by rw [h3]; ring
    have ey : p.y - a.y = t * (b.y - a.y) := by rw [h4]; ring
    have lx : (if b.x ≠ a.x then (p.x - a.x) / (b.x - a.x) else 0) = if b.x ≠ a.x then t else 0 := by
      split_ifs with h
      · rw [ex]; exact mul_div_cancel_right₀ t (sub_ne_zero.2 h)
      · rfl
    have ly : (if b.y ≠ a.y then (p.y - a.y) / (b.y - a.y) else 0) = if b.y ≠ a.y then t else 0 := by
      split_ifs with h
      · rw [ey]; exact mul_div_cancel_right₀ t (sub_ne_zero.2 h)
      · rfl
    rw [lx, ly]
    refine ⟨?_, ?_⟩
    · unfold area2; rw [ex, ey]; ring
    · refine ⟨⟨⟨?_, ?_⟩, ?_⟩, ?_⟩ <;> split_ifs <;> linarith

/-- A segment of length zero passes the test of the code for every point. -/
theorem onSegment_self (a p : Pt) : onSegment a a p = true := by
  unfold onSegment
  rw [isEqual_zero, cross_eq]
  simp [area2, lambda]

theorem OnSegment.symm {a b p : Pt} (h : OnSegment a b p) : OnSegment b a p := by
  obtain ⟨t, h1, h2, h3, h4⟩ := h
  exact ⟨1 - t, by linarith, by linarith, by rw [h3]; ring, by rw [h4]; ring⟩

theorem onSegment_symm (a b p : Pt) : onSegment a b p = onSegment b a p := by
  by_cases hab : a = b
  · rw [hab]
  · rw [Bool.eq_iff_iff, onSegment_iff hab, onSegment_iff (Ne.symm hab)]
    exact ⟨OnSegment.symm, OnSegment.symm⟩

theorem area2_symm (a b p : Pt) : area2 b a p = - area2 a b p := by unfold area2; ring

theorem crossing_symm (a b p : Pt) : crossing b a p = - crossing a b p := by
  unfold crossing
  simp only [cross_eq, area2_symm a b p]
  by_cases ha : a.y ≤ p.y <;> by_cases hb : b.y ≤ p.y <;>
    simp [ha, hb, not_lt.2, not_le.1] <;> split_ifs <;> rfl

theorem crossing_self (a p : Pt) : crossing a a p = 0 := by
  have := crossing_symm a a p
  omega

theorem windLoop_eq (p : Pt) (nodes : List Pt) (w : Int) :
    windLoop p nodes w = ((sides nodes).any (fun s => onSegment s.1 s.2 p) ||
      decide (w + ((sides nodes).map fun s => crossing s.1 s.2 p).sum ≠ 0)) := by
  induction nodes generalizing w with
  | nil => simp [windLoop, sides]
  | cons a rest ih =>
    cases rest with
    | nil => simp [windLoop, sides]
    | cons b rest =>
      rw [windLoop, ih]
      have : sides (a :: b :: rest) = (a, b) :: sides (b :: rest) := rfl
      rw [this]
      by_cases h : onSegment a b p = true
      · simp [h]
      · simp only [h, Bool.false_eq_true, if_false, List.any_cons, Bool.false_or, List.map_cons, List.sum_cons]
        rw [Int.add_assoc]

theorem nodesLoop_eq (p : Pt) (nodes : List Pt) (w : Int) :
    nodesLoop p nodes w = ((sides nodes).any (fun s => decide (area2 s.1 s.2 p = 0)) ||
      decide (w + ((sides nodes).map fun s => crossing s.1 s.2 p).sum ≠ 0)) := by
  induction nodes generalizing w with
  | nil => simp [nodesLoop, sides]
  | cons a rest ih =>
    cases rest with
    | nil => simp [nodesLoop, sides]
    | cons b rest =>
      rw [nodesLoop, ih, isEqual_zero, cross_eq]
      have : sides (a :: b :: rest) = (a, b) :: sides (b :: rest) := rfl
      rw [this]
      by_cases h : area2 a b p = 0
      · simp [h]
      · simp only [h, decide_false, Bool.false_eq_true, if_false, List.any_cons, Bool.false_or, List.map_cons,
          List.sum_cons]
        rw [Int.add_assoc]

/-! ## Bounding box -/

theorem grow_lo_x (nodes : List Pt) (hv : ∀ q ∈ nodes, q.isValid = true) (b : Box) (v : ℚ) :
    (nodes.foldl Box.grow b).lo.x ≤ v ↔ b.lo.x ≤ v ∨ ∃ q ∈ nodes, q.x ≤ v := by
  induction nodes generalizing b with
  | nil => simp
  | cons q qs ih =>
    rw [List.foldl_cons, ih (fun x hx => hv x (by simp [hx]))]
    simp only [Box.grow, hv q (by simp), if_true, min_le_iff, List.mem_cons, exists_eq_or_imp, or_assoc]

theorem grow_lo_y (nodes : List Pt) (hv : ∀ q ∈ nodes, q.isValid = true) (b : Box) (v : ℚ) :
    (nodes.foldl Box.grow b).lo.y ≤ v ↔ b.lo.y ≤ v ∨ ∃ q ∈ nodes, q.y ≤ v := by
  induction nodes generalizing b with
  | nil => simp
  | cons q qs ih =>
    rw [List.foldl_cons, ih (fun x hx => hv x (by simp [hx]))]
    simp only [Box.grow, hv q (by simp), if_true, min_le_iff, List.mem_cons, exists_eq_or_imp, or_assoc]

theorem grow_hi_x (nodes : List Pt) (hv : ∀ q ∈ nodes, q.isValid = true) (b : Box) (v : ℚ) :
    v ≤ (nodes.foldl Box.grow b).hi.x ↔ v ≤ b.hi.x ∨ ∃ q ∈ nodes, v ≤ q.x := by
  induction nodes generalizing b with
  | nil => simp
  | cons q qs ih =>
    rw [List.foldl_cons, ih (fun x hx => hv x (by simp [hx]))]
    simp only [Box.grow, hv q (by simp), if_true, le_max_iff, List.mem_cons, exists_eq_or_imp, or_assoc]

theorem grow_hi_y (nodes : List Pt) (hv : ∀ q ∈ nodes, q.isValid = true) (b : Box) (v : ℚ) :
    v ≤ (nodes.foldl Box.grow b).hi.y ↔ v ≤ b.hi.y ∨ ∃ q ∈ nodes, v ≤ q.y := by
  induction nodes generalizing b with
  | nil => simp
  | cons q qs ih =>
    rw [List.foldl_cons, ih (fun x hx => hv x (by simp [hx]))]
    simp only [Box.grow, hv q (by simp), if_true, le_max_iff, List.mem_cons, exists_eq_or_imp, or_assoc]

theorem box_iff {nodes : List Pt} (hv : ∀ q ∈ nodes, q.isValid = true) {p : Pt} (hp : p.Finite) :
    (boundingBox nodes).contains p = true ↔ InBox nodes p := by
  obtain ⟨h1, h2, h3, h4⟩ := hp
  unfold Box.contains boundingBox InBox
  simp only [Bool.and_eq_true, decide_eq_true_eq, ge_iff_le, grow_lo_x nodes hv, grow_lo_y nodes hv, grow_hi_x nodes hv,
    grow_hi_y nodes hv, not_le.2 h1, not_le.2 h2, not_le.2 h3, not_le.2 h4, false_or, and_assoc]

theorem ringContains_eq {nodes : List Pt} (hr : RingNodes nodes) {p : Pt} (hv : p.isValid = true)
    (hp : p.Finite) [Decidable (InBox nodes p)] :
    ringContains nodes p = .ok (decide (InBox nodes p) && windLoop p nodes 0) := by
  obtain ⟨h4, -, hval⟩ := hr
  have hne : nodes.isEmpty = false := by
    cases nodes with
    | nil => simp at h4
    | cons => rfl
  unfold ringContains
  have h3 : ¬ nodes.length < 3 := by omega
  by_cases hb : InBox nodes p
  · simp [hv, hne, h3, (box_iff hval hp).2 hb, hb]
  · have : (boundingBox nodes).contains p = false := by
      rw [Bool.eq_false_iff]; exact fun h => hb ((box_iff hval hp).1 h)
    simp [hv, hne, h3, this, hb]

/-! ## Sides of a ring -/

theorem sides_concat (l : List Pt) (x y : Pt) : sides (l ++ [x, y]) = sides (l ++ [x]) ++ [(x, y)] := by
  induction l with
  | nil => rfl
  | cons a l ih =>
    cases l with
    | nil => rfl
    | cons b l =>
      have e1 : sides (a :: b :: l ++ [x, y]) = (a, b) :: sides (b :: l ++ [x, y]) := rfl
      have e2 : sides (a :: b :: l ++ [x]) = (a, b) :: sides (b :: l ++ [x]) := rfl
      rw [e1, e2, ih]; rfl

theorem sides_reverse (l : List Pt) : (sides l.reverse) = ((sides l).map Prod.swap).reverse := by
  induction l with
  | nil => rfl
  | cons a l ih =>
    cases l with
    | nil => rfl
    | cons b l =>
      rw [List.reverse_cons, List.reverse_cons, List.append_assoc]
      show sides (l.reverse ++ [b, a]) = _
      rw [sides_concat]
      have : l.reverse ++ [b] = (b :: l).reverse := by simp
      rw [this, ih]
      have e : sides (a :: b :: l) = (a, b) :: sides (b :: l) := rfl
      rw [e]; simp

theorem sides_ringOf_rotate (a b : Pt) (vs : List Pt) :
    (sides (ringOf (a :: b :: vs))).Perm (sides (ringOf (b :: vs ++ [a]))) := by
  have e1 : sides (ringOf (a :: b :: vs)) = (a, b) :: sides (b :: vs ++ [a]) := rfl
  have e2 : ringOf (b :: vs ++ [a]) = (b :: vs) ++ [a, b] := by simp [ringOf]
  rw [e1, e2, sides_concat]
  exact (List.perm_append_singleton _ _).symm

theorem mem_sides_of_append (pre post : List Pt) (u v : Pt) : (u, v) ∈ sides (pre ++ u :: v :: post) := by
  induction pre with
  | nil => simp [sides]
  | cons a pre ih =>
    cases pre with
    | nil => exact List.mem_cons_of_mem _ ih
    | cons b pre => exact List.mem_cons_of_mem _ ih

theorem mem_of_sides {nodes : List Pt} {s : Pt × Pt} (h : s ∈ sides nodes) : s.1 ∈ nodes ∧ s.2 ∈ nodes := by
  have := List.of_mem_zip h
  exact ⟨this.1, List.mem_of_mem_tail this.2⟩

theorem sides_split {nodes : List Pt} {s : Pt × Pt} (h : s ∈ sides nodes) :
    ∃ pre post, nodes = pre ++ s.1 :: s.2 :: post := by
  induction nodes with
  | nil => simp [sides] at h
  | cons a l ih =>
    cases l with
    | nil => simp [sides] at h
    | cons b l =>
      have e : sides (a :: b :: l) = (a, b) :: sides (b :: l) := rfl
      rw [e, List.mem_cons] at h
      rcases h with rfl | h
      · exact ⟨[], l, rfl⟩
      · obtain ⟨pre, post, hh⟩ := ih h
        exact ⟨a :: pre, post, by rw [hh]; rfl⟩

/-! ## Winding number -/

theorem seg_of_cross {a b p : Pt} (ha : a.y ≤ p.y) (hb : p.y < b.y) (hw : area2 a b p = 0) :
    OnSegment a b p := by
  have hd : 0 < b.y - a.y := by linarith
  refine ⟨(p.y - a.y) / (b.y - a.y), div_nonneg (by linarith) hd.le, (div_le_one hd).2 (by linarith), ?_, ?_⟩
  · unfold area2 at hw
    field_simp
    linarith
  · field_simp; ring

theorem seg_of_cross' {a b p : Pt} (ha : p.y < a.y) (hb : b.y ≤ p.y) (hw : area2 a b p = 0) :
    OnSegment a b p := by
  refine (seg_of_cross hb ha ?_).symm
  rw [area2_symm, hw, neg_zero]

theorem seg_of_level {a b p : Pt} (ha : a.y = p.y) (hb : b.y = p.y) (h1 : a.x < p.x) (h2 : p.x < b.x) :
    OnSegment a b p := by
  have hd : 0 < b.x - a.x := by linarith
  refine ⟨(p.x - a.x) / (b.x - a.x), div_nonneg (by linarith) hd.le, (div_le_one hd).2 (by linarith), ?_, ?_⟩
  · field_simp; ring
  · rw [ha, hb]; ring

theorem barycentric (a b c p : Pt) :
    area2 b c p * (a.y - p.y) + area2 c a p * (b.y - p.y) + area2 a b p * (c.y - p.y) = 0 := by
  unfold area2; ring

/-- One corner above the point. -/
theorem triangle_up (a b c p : Pt) (ha : p.y < a.y) (hb : b.y ≤ p.y) (hc : c.y ≤ p.y)
    (h1 : ¬ OnSegment a b p) (h2 : ¬ OnSegment b c p) (h3 : ¬ OnSegment c a p) :
    crossing a b p + crossing b c p + crossing c a p = triangleTurn a b c p := by
  have hW : area2 a b p ≠ 0 := fun h => h1 (seg_of_cross' ha hb h)
  have hV : area2 c a p ≠ 0 := fun h => h3 (seg_of_cross hc ha h)
  have hid := barycentric a b c p
  have e1 : crossing a b p = if area2 a b p < 0 then -1 else 0 := by
    simp [crossing, cross_eq, not_le.2 ha, hb]
  have e2 : crossing b c p = 0 := by simp [crossing, cross_eq, not_lt.2 hc, hb]
  have e3 : crossing c a p = if 0 < area2 c a p then 1 else 0 := by
    simp [crossing, cross_eq, ha, hc]
  rw [e1, e2, e3]
  unfold triangleTurn
  have level : b.y - p.y = 0 → c.y - p.y = 0 → area2 c a p = (a.y - p.y) * (c.x - p.x) ∧
      area2 a b p = (a.y - p.y) * (p.x - b.x) := by
    intro hB hC
    have hb' : b.y = p.y := by linarith
    have hc' : c.y = p.y := by linarith
    constructor
    · unfold area2; rw [hc']; ring
    · unfold area2; rw [hb']; ring
  have hA : 0 < a.y - p.y := by linarith
  have hB : b.y - p.y ≤ 0 := by linarith
  have hC : c.y - p.y ≤ 0 := by linarith
  rcases lt_or_gt_of_ne hW with hw | hw <;> rcases lt_or_gt_of_ne hV with hv | hv
  · -- both negative
    have hu : area2 b c p < 0 := by
      by_contra hu
      have t1 := mul_nonneg (not_lt.1 hu) hA.le
      have t2 := mul_nonneg_of_nonpos_of_nonpos hv.le hB
      have t3 := mul_nonneg_of_nonpos_of_nonpos hw.le hC
      have z2 : area2 c a p * (b.y - p.y) = 0 := by linarith
      have z3 : area2 a b p * (c.y - p.y) = 0 := by linarith
      have hB0 : b.y - p.y = 0 := (mul_eq_zero.1 z2).resolve_left hv.ne
      have hC0 : c.y - p.y = 0 := (mul_eq_zero.1 z3).resolve_left hw.ne
      obtain ⟨l1, l2⟩ := level hB0 hC0
      rw [l1] at hv; rw [l2] at hw
      have hcx : c.x - p.x < 0 := by
        by_contra h; have := mul_nonneg hA.le (not_lt.1 h); linarith
      have hbx : p.x - b.x < 0 := by
        by_contra h; have := mul_nonneg hA.le (not_lt.1 h); linarith
      exact h2 (seg_of_level (a := c) (b := b) (by linarith) (by linarith) (by linarith) (by linarith)).symm
    simp [hw, hv, hu, not_lt.2 hw.le, not_lt.2 hv.le]
  · simp [hw, hv, not_lt.2 hw.le, not_lt.2 hv.le]
  · simp [hw, hv, not_lt.2 hw.le, not_lt.2 hv.le]
  · have hu : 0 < area2 b c p := by
      by_contra hu
      have t1 := mul_nonpos_of_nonpos_of_nonneg (not_lt.1 hu) hA.le
      have t2 := mul_nonpos_of_nonneg_of_nonpos hv.le hB
      have t3 := mul_nonpos_of_nonneg_of_nonpos hw.le hC
      have z2 : area2 c a p * (b.y - p.y) = 0 := by linarith
      have z3 : area2 a b p * (c.y - p.y) = 0 := by linarith
      have hB0 : b.y - p.y = 0 := (mul_eq_zero.1 z2).resolve_left hv.ne'
      have hC0 : c.y - p.y = 0 := (mul_eq_zero.1 z3).resolve_left hw.ne'
      obtain ⟨l1, l2⟩ := level hB0 hC0
      rw [l1] at hv; rw [l2] at hw
      have hcx : 0 < c.x - p.x := by
        by_contra h; have := mul_nonpos_of_nonneg_of_nonpos hA.le (not_lt.1 h); linarith
      have hbx : 0 < p.x - b.x := by
        by_contra h; have := mul_nonpos_of_nonneg_of_nonpos hA.le (not_lt.1 h); linarith
      exact h2 (seg_of_level (by linarith) (by linarith) (by linarith) (by linarith))
    simp [hw, hv, hu, not_lt.2 hw.le, not_lt.2 hv.le]

/-- One corner below or level with the point. -/
theorem triangle_down (a b c p : Pt) (ha : a.y ≤ p.y) (hb : p.y < b.y) (hc : p.y < c.y)
    (h1 : ¬ OnSegment a b p) (h3 : ¬ OnSegment c a p) :
    crossing a b p + crossing b c p + crossing c a p = triangleTurn a b c p := by
  have hW : area2 a b p ≠ 0 := fun h => h1 (seg_of_cross ha hb h)
  have hV : area2 c a p ≠ 0 := fun h => h3 (seg_of_cross' hc ha h)
  have hid := barycentric a b c p
  have e1 : crossing a b p = if 0 < area2 a b p then 1 else 0 := by
    simp [crossing, cross_eq, ha, hb]
  have e2 : crossing b c p = 0 := by simp [crossing, cross_eq, not_le.2 hb, not_le.2 hc]
  have e3 : crossing c a p = if area2 c a p < 0 then -1 else 0 := by
    simp [crossing, cross_eq, not_le.2 hc, ha]
  rw [e1, e2, e3]
  unfold triangleTurn
  have hA : a.y - p.y ≤ 0 := by linarith
  have hB : 0 < b.y - p.y := by linarith
  have hC : 0 < c.y - p.y := by linarith
  rcases lt_or_gt_of_ne hW with hw | hw <;> rcases lt_or_gt_of_ne hV with hv | hv
  · have hu : area2 b c p < 0 := by
      by_contra hu
      have t1 := mul_nonpos_of_nonneg_of_nonpos (not_lt.1 hu) hA
      have t2 := mul_neg_of_neg_of_pos hv hB
      have t3 := mul_neg_of_neg_of_pos hw hC
      linarith
    simp [hw, hv, hu, not_lt.2 hw.le, not_lt.2 hv.le]
  · simp [hw, hv, not_lt.2 hw.le, not_lt.2 hv.le]
  · simp [hw, hv, not_lt.2 hw.le, not_lt.2 hv.le]
  · have hu : 0 < area2 b c p := by
      by_contra hu
      have t1 := mul_nonneg_of_nonpos_of_nonpos (not_lt.1 hu) hA
      have t2 := mul_pos hv hB
      have t3 := mul_pos hw hC
      linarith
    simp [hw, hv, hu, not_lt.2 hw.le, not_lt.2 hv.le]

/-- All corners on one side. -/
theorem triangle_side (a b c p : Pt) (h : (p.y < a.y ∧ p.y < b.y ∧ p.y < c.y) ∨ (a.y ≤ p.y ∧ b.y ≤ p.y ∧ c.y ≤ p.y)) :
    crossing a b p + crossing b c p + crossing c a p = triangleTurn a b c p := by
  have hid := barycentric a b c p
  rcases h with ⟨ha, hb, hc⟩ | ⟨ha, hb, hc⟩
  · have hA : 0 < a.y - p.y := by linarith
    have hB : 0 < b.y - p.y := by linarith
    have hC : 0 < c.y - p.y := by linarith
    have n1 : ¬ (0 < area2 a b p ∧ 0 < area2 b c p ∧ 0 < area2 c a p) := by
      rintro ⟨x, y, z⟩
      have := mul_pos x hC; have := mul_pos y hA; have := mul_pos z hB; linarith
    have n2 : ¬ (area2 a b p < 0 ∧ area2 b c p < 0 ∧ area2 c a p < 0) := by
      rintro ⟨x, y, z⟩
      have := mul_neg_of_neg_of_pos x hC; have := mul_neg_of_neg_of_pos y hA
      have := mul_neg_of_neg_of_pos z hB; linarith
    unfold triangleTurn
    rw [if_neg n1, if_neg n2]
    simp [crossing, not_le.2 ha, not_le.2 hb, not_le.2 hc]
  · have hA : a.y - p.y ≤ 0 := by linarith
    have hB : b.y - p.y ≤ 0 := by linarith
    have hC : c.y - p.y ≤ 0 := by linarith
    have flat : area2 a b p ≠ 0 → a.y - p.y = 0 → b.y - p.y = 0 → False := by
      intro h ha hb
      apply h
      have h1 : a.y = p.y := by linarith
      have h2 : b.y = p.y := by linarith
      unfold area2; rw [h1, h2]; ring
    have n1 : ¬ (0 < area2 a b p ∧ 0 < area2 b c p ∧ 0 < area2 c a p) := by
      rintro ⟨x, y, z⟩
      have t1 := mul_nonpos_of_nonneg_of_nonpos x.le hC
      have t2 := mul_nonpos_of_nonneg_of_nonpos y.le hA
      have t3 := mul_nonpos_of_nonneg_of_nonpos z.le hB
      have z2 : area2 b c p * (a.y - p.y) = 0 := by linarith
      have z3 : area2 c a p * (b.y - p.y) = 0 := by linarith
      exact flat x.ne' ((mul_eq_zero.1 z2).resolve_left y.ne') ((mul_eq_zero.1 z3).resolve_left z.ne')
    have n2 : ¬ (area2 a b p < 0 ∧ area2 b c p < 0 ∧ area2 c a p < 0) := by
      rintro ⟨x, y, z⟩
      have t1 := mul_nonneg_of_nonpos_of_nonpos x.le hC
      have t2 := mul_nonneg_of_nonpos_of_nonpos y.le hA
      have t3 := mul_nonneg_of_nonpos_of_nonpos z.le hB
      have z2 : area2 b c p * (a.y - p.y) = 0 := by linarith
      have z3 : area2 c a p * (b.y - p.y) = 0 := by linarith
      exact flat x.ne ((mul_eq_zero.1 z2).resolve_left y.ne) ((mul_eq_zero.1 z3).resolve_left z.ne)
    unfold triangleTurn
    rw [if_neg n1, if_neg n2]
    simp [crossing, ha, hb, hc, not_lt.2 ha, not_lt.2 hb, not_lt.2 hc]

theorem triangleTurn_rotate (a b c p : Pt) : triangleTurn a b c p = triangleTurn b c a p := by
  unfold triangleTurn
  have e1 : (0 < area2 a b p ∧ 0 < area2 b c p ∧ 0 < area2 c a p) ↔
      (0 < area2 b c p ∧ 0 < area2 c a p ∧ 0 < area2 a b p) := by
    constructor <;> rintro ⟨x, y, z⟩ <;> exact ⟨by assumption, by assumption, by assumption⟩
  have e2 : (area2 a b p < 0 ∧ area2 b c p < 0 ∧ area2 c a p < 0) ↔
      (area2 b c p < 0 ∧ area2 c a p < 0 ∧ area2 a b p < 0) := by
    constructor <;> rintro ⟨x, y, z⟩ <;> exact ⟨by assumption, by assumption, by assumption⟩
  simp only [e1, e2]

/-- The crossings of the three sides of a triangle add up to its turn around the point. -/
theorem triangle_crossings (a b c p : Pt) (h1 : ¬ OnSegment a b p) (h2 : ¬ OnSegment b c p)
    (h3 : ¬ OnSegment c a p) : crossing a b p + crossing b c p + crossing c a p = triangleTurn a b c p := by
  rcases lt_or_ge p.y a.y with ha | ha <;> rcases lt_or_ge p.y b.y with hb | hb <;>
    rcases lt_or_ge p.y c.y with hc | hc
  · exact triangle_side a b c p (.inl ⟨ha, hb, hc⟩)
  · have := triangle_down c a b p hc ha hb h3 h2
    rw [triangleTurn_rotate] at this; omega
  · have := triangle_down b c a p hb hc ha h2 h1
    rw [triangleTurn_rotate a b c]; omega
  · exact triangle_up a b c p ha hb hc h1 h2 h3
  · exact triangle_down a b c p ha hb hc h1 h3
  · have := triangle_up b c a p hb hc ha h2 h3 h1
    rw [triangleTurn_rotate a b c]; omega
  · have := triangle_up c a b p hc ha hb h3 h1 h2
    rw [triangleTurn_rotate] at this; omega
  · exact triangle_side a b c p (.inr ⟨ha, hb, hc⟩)

/-- The crossings along a path, as turns around a base point. -/
theorem path_crossings (o p : Pt) (l : List Pt) (a z : Pt) (hl : l.head? = some a) (hz : l.getLast? = some z)
    (hs : ∀ s ∈ sides l, ¬ OnSegment s.1 s.2 p) (ho : ∀ q ∈ l, ¬ OnSegment o q p) :
    ((sides l).map fun s => crossing s.1 s.2 p).sum
      = turns o l p + crossing a o p - crossing z o p := by
  induction l generalizing a with
  | nil => simp at hl
  | cons x l ih =>
    simp only [List.head?_cons, Option.some.injEq] at hl
    subst hl
    cases l with
    | nil =>
      simp only [List.getLast?_singleton, Option.some.injEq] at hz
      subst hz
      simp [sides, turns]
    | cons y l =>
      have e : sides (x :: y :: l) = (x, y) :: sides (y :: l) := rfl
      have e2 : turns o (x :: y :: l) p = triangleTurn o x y p + turns o (y :: l) p := by
        simp [turns, e]
      rw [e, List.map_cons, List.sum_cons, e2, ih y rfl (by simpa using hz)
        (fun s h => hs s (by rw [e]; simp [h])) (fun q h => ho q (by simp [List.mem_cons.1 h]))]
      have ht := triangle_crossings o x y p (ho x (by simp)) (hs (x, y) (by rw [e]; simp))
        (fun h => ho y (by simp) h.symm)
      have := crossing_symm o x p
      simp only
      omega

/-- The side goes up or down past the point when all its ends lie to the right. -/
theorem crossing_right {a b p : Pt} (ha : p.x < a.x) (hb : p.x < b.x) :
    crossing a b p = (if p.y < b.y then 1 else 0) - (if p.y < a.y then 1 else 0) := by
  unfold crossing
  rw [cross_eq]
  rcases lt_or_ge p.y a.y with h1 | h1 <;> rcases lt_or_ge p.y b.y with h2 | h2
  · simp [h1, h2, not_le.2 h1, not_le.2 h2]
  · have : area2 a b p < 0 := by
      have e : area2 a b p = - ((a.y - p.y) * (b.x - p.x)) + (b.y - p.y) * (a.x - p.x) := by unfold area2; ring
      have t1 := mul_pos (sub_pos.2 h1) (sub_pos.2 hb)
      have t2 := mul_nonpos_of_nonpos_of_nonneg (sub_nonpos.2 h2) (sub_pos.2 ha).le
      linarith
    simp [h1, h2, not_le.2 h1, not_lt.2 h2, this]
  · have : 0 < area2 a b p := by
      have e : area2 a b p = - ((a.y - p.y) * (b.x - p.x)) + (b.y - p.y) * (a.x - p.x) := by unfold area2; ring
      have t1 := mul_nonpos_of_nonpos_of_nonneg (sub_nonpos.2 h1) (sub_pos.2 hb).le
      have t2 := mul_pos (sub_pos.2 h2) (sub_pos.2 ha)
      linarith
    simp [h1, h2, not_lt.2 h1, this]
  · simp [h1, not_lt.2 h1, not_lt.2 h2]

theorem crossing_left {a b p : Pt} (ha : a.x < p.x) (hb : b.x < p.x) : crossing a b p = 0 := by
  unfold crossing
  rw [cross_eq]
  have e : area2 a b p = - ((a.y - p.y) * (b.x - p.x)) + (b.y - p.y) * (a.x - p.x) := by unfold area2; ring
  rcases lt_or_ge p.y a.y with h1 | h1 <;> rcases lt_or_ge p.y b.y with h2 | h2
  · simp [not_le.2 h1, not_le.2 h2]
  · have : 0 ≤ area2 a b p := by
      have t1 := mul_neg_of_pos_of_neg (sub_pos.2 h1) (sub_neg.2 hb)
      have t2 := mul_nonneg_of_nonpos_of_nonpos (sub_nonpos.2 h2) (sub_neg.2 ha).le
      linarith
    simp [not_le.2 h1, not_lt.2 this]
  · have : area2 a b p ≤ 0 := by
      have t1 := mul_nonneg_of_nonpos_of_nonpos (sub_nonpos.2 h1) (sub_neg.2 hb).le
      have t2 := mul_neg_of_pos_of_neg (sub_pos.2 h2) (sub_neg.2 ha)
      linarith
    simp [h1, not_lt.2 this]
  · simp [h1, not_lt.2 h2]

theorem path_right (p : Pt) (l : List Pt) (a z : Pt) (hl : l.head? = some a) (hz : l.getLast? = some z)
    (h : ∀ q ∈ l, p.x < q.x) : ((sides l).map fun s => crossing s.1 s.2 p).sum
      = (if p.y < z.y then 1 else 0) - (if p.y < a.y then 1 else 0) := by
  induction l generalizing a with
  | nil => simp at hl
  | cons x l ih =>
    simp only [List.head?_cons, Option.some.injEq] at hl
    subst hl
    cases l with
    | nil =>
      simp only [List.getLast?_singleton, Option.some.injEq] at hz
      subst hz
      simp [sides]
    | cons y l =>
      have e : sides (x :: y :: l) = (x, y) :: sides (y :: l) := rfl
      rw [e, List.map_cons, List.sum_cons, ih y rfl (by simpa using hz) (fun q hq => h q (by simp [List.mem_cons.1 hq]))]
      rw [crossing_right (h x (by simp)) (h y (by simp))]
      omega

/-- Outside the rectangle spanned by a closed path, the crossings cancel. -/
theorem crossings_outside {p : Pt} {l : List Pt} (hcl : l.head? = l.getLast?) (h : ¬ InBox l p) :
    ((sides l).map fun s => crossing s.1 s.2 p).sum = 0 := by
  cases l with
  | nil => simp [sides]
  | cons a l =>
    have hz : (a :: l).getLast? = some a := by rw [← hcl]; rfl
    have zero : (∀ s ∈ sides (a :: l), crossing s.1 s.2 p = 0) →
        ((sides (a :: l)).map fun s => crossing s.1 s.2 p).sum = 0 := by
      intro hs
      generalize sides (a :: l) = S at hs
      induction S with
      | nil => rfl
      | cons s S ih =>
        rw [List.map_cons, List.sum_cons, hs s (by simp), ih (fun t ht => hs t (by simp [ht]))]; rfl
    unfold InBox at h
    by_cases h1 : ∃ q ∈ a :: l, q.x ≤ p.x
    · by_cases h2 : ∃ q ∈ a :: l, p.x ≤ q.x
      · by_cases h3 : ∃ q ∈ a :: l, q.y ≤ p.y
        · have h4 : ¬ ∃ q ∈ a :: l, p.y ≤ q.y := fun h4 => h ⟨h1, h2, h3, h4⟩
          push Not at h4
          refine zero fun s hs => ?_
          have := mem_of_sides hs
          have hy1 := h4 _ this.1
          have hy2 := h4 _ this.2
          simp [crossing, hy1.le, not_lt.2 hy2.le]
        · push Not at h3
          refine zero fun s hs => ?_
          have := mem_of_sides hs
          have hy1 := h3 _ this.1
          have hy2 := h3 _ this.2
          simp [crossing, not_le.2 hy1, not_le.2 hy2]
      · push Not at h2
        refine zero fun s hs => ?_
        have := mem_of_sides hs
        exact crossing_left (h2 _ this.1) (h2 _ this.2)
    · push Not at h1
      rw [path_right p (a :: l) a a rfl hz h1]
      omega

theorem between {t u v : ℚ} (h0 : 0 ≤ t) (h1 : t ≤ 1) :
    (u ≤ (1 - t) * u + t * v ∨ v ≤ (1 - t) * u + t * v) ∧
    ((1 - t) * u + t * v ≤ u ∨ (1 - t) * u + t * v ≤ v) := by
  rcases le_total u v with h | h
  · have t1 := mul_nonneg h0 (sub_nonneg.2 h)
    have t2 := mul_nonneg (sub_nonneg.2 h1) (sub_nonneg.2 h)
    exact ⟨.inl (by linarith), .inr (by linarith)⟩
  · have t1 := mul_nonneg h0 (sub_nonneg.2 h)
    have t2 := mul_nonneg (sub_nonneg.2 h1) (sub_nonneg.2 h)
    exact ⟨.inr (by linarith), .inl (by linarith)⟩

theorem inBox_of_onSegment {p a b : Pt} {l : List Pt} (ha : a ∈ l) (hb : b ∈ l) (h : OnSegment a b p) :
    InBox l p := by
  obtain ⟨t, h0, h1, hx, hy⟩ := h
  have bx := between (u := a.x) (v := b.x) h0 h1
  have by' := between (u := a.y) (v := b.y) h0 h1
  rw [← hx] at bx; rw [← hy] at by'
  refine ⟨?_, ?_, ?_, ?_⟩
  · exact bx.1.elim (fun h => ⟨a, ha, h⟩) (fun h => ⟨b, hb, h⟩)
  · exact bx.2.elim (fun h => ⟨a, ha, h⟩) (fun h => ⟨b, hb, h⟩)
  · exact by'.1.elim (fun h => ⟨a, ha, h⟩) (fun h => ⟨b, hb, h⟩)
  · exact by'.2.elim (fun h => ⟨a, ha, h⟩) (fun h => ⟨b, hb, h⟩)

end Verif.Polygons
