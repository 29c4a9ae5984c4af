import Verif.CurviLine.Spec
import Verif.Curvi.EditProps
import Mathlib.Tactic.Ring
import Mathlib.Tactic.FieldSimp
import Mathlib.Tactic.NormNum
/-!
# Lemmas about grid lines, frames and smoothing factors
-/
namespace Verif.CurviLine
open Verif.Curvi

variable {K : Type} [Field K] [LinearOrder K]

theorem realGeo_good : realGeo.Good where
  dist_nonneg _ _ := Real.sqrt_nonneg _
  dist_sq _ _ := Real.sq_sqrt (by positivity)
  bell_line m := by simp [realGeo]
  bell_edge m hm := by
    have : (m : ℝ) ≠ 0 := by exact_mod_cast hm.ne'
    simp [realGeo, mul_div_assoc, div_self this]
  bell_nonneg d m := by
    have := Real.neg_one_le_cos (Real.pi * d / m)
    show 0 ≤ (1 + _) / 2
    linarith
  bell_le d m := by
    have := Real.cos_le_one (Real.pi * d / m)
    show (1 + _) / 2 ≤ 1
    linarith

theorem has_iff (l : Line) (v : Nat × Nat) : l.has v = true ↔ l.On v := by
  unfold Line.has Line.On Line.across Line.along
  rw [List.any_eq_true]
  constructor
  · rintro ⟨i, hi, h⟩
    rw [List.mem_range'_1] at hi
    cases hN : l.alongN
    · simp only [hN, Bool.not_false, Bool.true_and, Bool.false_and, Bool.or_false, Bool.and_eq_true, decide_eq_true_eq] at h
      simp only [Bool.false_eq_true, if_false]
      omega
    · simp only [hN, Bool.not_true, Bool.true_and, Bool.false_and, Bool.false_or, Bool.and_eq_true, decide_eq_true_eq] at h
      simp only [if_true]
      omega
  · intro h
    refine ⟨if l.alongN then v.1 else v.2, ?_, ?_⟩
    · rw [List.mem_range'_1]; omega
    · cases hN : l.alongN
      · simp only [hN, Bool.false_eq_true, if_false] at h
        simp [h.1]
      · simp only [hN, if_true] at h
        simp [h.1]

omit [LinearOrder K] in
theorem factor_eq (geo : Geo K) {x c lo up : Nat} (h1 : lo ≤ x) (h2 : x ≤ up) : factor geo x c lo up = fading geo x c lo up := by
  unfold factor fading
  simp only
  by_cases h : x ≤ c
  · have h' : ¬ x > c := by omega
    simp only [if_neg h', if_pos h]
    by_cases e : c = lo
    · rw [if_pos (by omega), if_pos e]
    · rw [if_neg (by omega), if_neg e]
  · have h' : x > c := by omega
    simp only [if_pos h', if_neg h]
    rw [if_neg (by omega)]

omit [LinearOrder K] in
theorem lineFactor_eq (geo : Geo K) (l : Line) {lo up : Nat × Nat} {n m : Nat} (h1 : l.across lo ≤ l.across (n, m))
    (h2 : l.across (n, m) ≤ l.across up) :
    lineFactor geo l lo up n m = fading geo (l.across (n, m)) l.const (l.across lo) (l.across up) := by
  unfold lineFactor
  unfold Line.across Line.const at *
  cases hN : l.alongN
  · simp only [hN, Bool.false_eq_true, if_false] at *
    exact factor_eq geo h1 h2
  · simp only [hN, if_true] at *
    exact factor_eq geo h1 h2

theorem rotateInto_global (geo : Geo K) (g : Grid (Pt K)) (v : Pt K) (n m : Nat) :
    rotateInto geo v (after g n m) (before g n m) false = fromFrame geo g n m v := by
  unfold rotateInto fromFrame normal direction
  simp only
  split
  · simp only [Bool.false_eq_true, if_false, add, scale, sub]
    congr 1 <;> ring
  · simp [add, scale]

theorem rotateInto_local (geo : Geo K) (g : Grid (Pt K)) (v : Pt K) (n m : Nat) :
    rotateInto geo v (after g n m) (before g n m) true = inFrame geo g n m v := by
  unfold rotateInto inFrame direction
  simp only
  split
  · simp only [if_true, scale, sub]
    congr 1 <;> ring
  · simp

theorem transform_ok (geo : Geo K) (g : Grid (Pt K)) (v : Pt K) {n m : Nat} (b : Bool) (hn : n < g.numN) (hm : m < g.numM) :
    transform geo g v n m b = .ok (if b then inFrame geo g n m v else fromFrame geo g n m v) := by
  unfold transform neighbour
  rw [getNode_ok hn hm, Res.ok_bind]
  have hr : (if decide (n + 1 < g.numN) = true then do
      let p ← getNode g (n + 1) m
      Res.ok (if valid p then p else g.node n m)
    else Res.ok (g.node n m)) = .ok (after g n m) := by
    unfold after
    by_cases h : n + 1 < g.numN
    · rw [if_pos (by simpa using h), getNode_ok h hm, Res.ok_bind]
      by_cases hv : valid (g.node (n + 1) m) = true
      · rw [if_pos hv, if_pos ⟨h, hv⟩]
      · rw [if_neg hv, if_neg (fun c => hv c.2)]
    · rw [if_neg (by simpa using h), if_neg (fun c => h c.1)]
  have hl : (if decide (n > 0) = true then do
      let p ← getNode g (n - 1) m
      Res.ok (if valid p then p else g.node n m)
    else Res.ok (g.node n m)) = .ok (before g n m) := by
    unfold before
    by_cases h : 0 < n
    · rw [if_pos (by simpa using h), getNode_ok (by omega) hm, Res.ok_bind]
      by_cases hv : valid (g.node (n - 1) m) = true
      · rw [if_pos hv, if_pos ⟨h, hv⟩]
      · rw [if_neg hv, if_neg (fun c => hv c.2)]
    · rw [if_neg (by simpa using h), if_neg (fun c => h c.1)]
  rw [hr, Res.ok_bind, hl, Res.ok_bind]
  cases b
  · rw [rotateInto_global]; rfl
  · rw [rotateInto_local]; rfl

/-- The neighbour on one side, as a list. -/
theorem sideDistance_ok (geo : Geo K) (g : Grid (Pt K)) (c : Prop) [Decidable c] {n m n' m' : Nat} (hn : n < g.numN) (hm : m < g.numM)
    (h' : c → n' < g.numN ∧ m' < g.numM) :
    sideDistance geo g (decide c) n m n' m' =
      .ok ((((if c then [g.node n' m'] else []).filter valid).map (geo.dist (g.node n m))).sum,
        (((if c then [g.node n' m'] else []).filter valid).length : K)) := by
  unfold sideDistance
  by_cases h : c
  · rw [if_pos (by simpa using h), getNode_ok (h' h).1 (h' h).2, Res.ok_bind, if_pos h]
    by_cases hv : valid (g.node n' m') = true
    · rw [if_pos hv, getNode_ok hn hm, Res.ok_bind]
      simp [hv]
    · rw [if_neg hv]
      simp [hv]
  · rw [if_neg (by simpa using h), if_neg h]
    simp

theorem averageDistance_ok [CharZero K] (geo : Geo K) (g : Grid (Pt K)) (b : Bool) {n m : Nat} (hn : n < g.numN) (hm : m < g.numM) :
    averageDistance geo g b n m = .ok (meanDistance geo g b n m) := by
  have fin : ∀ a c : List (Pt K), (if ((a.length : K) + (c.length : K) = 0) then (0 : K)
      else ((a.map (geo.dist (g.node n m))).sum + (c.map (geo.dist (g.node n m))).sum) / ((a.length : K) + (c.length : K))) =
      ((a ++ c).map (geo.dist (g.node n m))).sum / ((a ++ c).length : K) := by
    intro a c
    rw [List.map_append, List.sum_append, List.length_append, Nat.cast_add]
    split
    · rename_i e; rw [e, div_zero]
    · rfl
  unfold averageDistance
  rw [if_neg (by omega)]
  cases b
  · simp only [Bool.false_eq_true, if_false]
    rw [sideDistance_ok geo g (m > 0) hn hm (fun h => ⟨hn, by omega⟩), Res.ok_bind,
      sideDistance_ok geo g (m + 1 < g.numM) hn hm (fun h => ⟨hn, h⟩), Res.ok_bind]
    congr 1
    rw [fin]
    unfold meanDistance neighbours
    simp only [Bool.false_eq_true, if_false, List.filter_append, gt_iff_lt]
  · simp only [if_true]
    rw [sideDistance_ok geo g (n > 0) hn hm (fun h => ⟨by omega, hm⟩), Res.ok_bind,
      sideDistance_ok geo g (n + 1 < g.numN) hn hm (fun h => ⟨h, hm⟩), Res.ok_bind]
    congr 1
    rw [fin]
    unfold meanDistance neighbours
    simp only [if_true, List.filter_append, gt_iff_lt]

/-- A line in a grid, in the order in which `SetLine` stores it. -/
structure Line.In {P : Type} (l : Line) (g : Grid P) : Prop where
  lt : l.start < l.stop
  straight : l.across l.first = l.across l.last
  first : l.first.1 < g.numN ∧ l.first.2 < g.numM
  last : l.last.1 < g.numN ∧ l.last.2 < g.numM

/-- The corners of a zone in a grid. -/
structure ZoneIn {P : Type} (lo up : Nat × Nat) (g : Grid P) : Prop where
  n : lo.1 ≤ up.1
  m : lo.2 ≤ up.2
  inside : up.1 < g.numN ∧ up.2 < g.numM

/-- The region of the loops is the zone of the line. -/
theorem zone_iff (l : Line) (lo up : Nat × Nat) (n m : Nat) :
    l.Zone lo up (n, m) ↔ ((regionOf l lo up).1.1 ≤ n ∧ n < (regionOf l lo up).2.1 + 1) ∧
      ((regionOf l lo up).1.2 ≤ m ∧ m < (regionOf l lo up).2.2 + 1) := by
  unfold Line.Zone Line.along Line.across regionOf
  cases hN : l.alongN
  · simp only [Bool.false_eq_true, if_false]; omega
  · simp only [if_true]; omega

theorem region_in {P : Type} {g : Grid P} {l : Line} {lo up : Nat × Nat} (hl : l.In g) (hz : ZoneIn lo up g) :
    (regionOf l lo up).1.1 ≤ (regionOf l lo up).2.1 ∧ (regionOf l lo up).1.2 ≤ (regionOf l lo up).2.2 ∧
      (regionOf l lo up).2.1 < g.numN ∧ (regionOf l lo up).2.2 < g.numM := by
  have h1 := hl.lt
  have h2 := hl.last
  have h3 := hz.n
  have h4 := hz.m
  have h5 := hz.inside
  unfold regionOf Line.start Line.stop at *
  cases hN : l.alongN
  · simp only [hN, Bool.false_eq_true, if_false] at *; omega
  · simp only [hN, if_true] at *; omega

/-- A saved block that covers all that changed: undo brings the grid back. -/
theorem undo_block {P : Type} [PointLike P] (g g' : Grid P) (hg : WF g) (hl : NoLoose g) (new : Nat → Nat → P) (he : Edited g g' new)
    (bn bm tn tm : Nat) (h1 : bn ≤ tn) (h2 : bm ≤ tm) (h3 : tn ≤ g.numN) (h4 : tm ≤ g.numM)
    (hout : ∀ n m, n < g.numN → m < g.numM → ¬ ((bn ≤ n ∧ n < tn) ∧ (bm ≤ m ∧ m < tm)) → new n m = g.node n m) :
    ∃ b', (Act.block ⟨bn, bm, tn, tm, savedNodes g bn bm tn tm⟩).restore g' = .ok (b', g) := by
  simp only [Act.restore]
  unfold swapAndClean
  rw [swapBlock_ok ⟨bn, bm, tn, tm, savedNodes g bn bm tn tm⟩ g' h1 h2 (by rw [he.shape.numN]; exact h3) (by rw [he.shape.numM]; exact h4) rfl rfl]
  simp only [Res.ok_bind]
  have e : mapBlock g' bn tn bm tm (fun n m _ => (savedNodes g bn bm tn tm).cell (n - bn) (m - bm)) = g := by
    refine Grid.ext_node (he.shape.trans (mapBlock_shape ..)) (fun n m hn hm => ?_) fun i j h => ?_
    · rw [mapBlock_node]
      by_cases c : (bn ≤ n ∧ n < tn) ∧ bm ≤ m ∧ m < tm
      · rw [if_pos c, savedNodes_node _ _ _ _ _ _ _ (by omega) (by omega), show n - bn + bn = n by omega, show m - bm + bm = m by omega]
      · rw [if_neg c, he.visible n m hn hm, hout n m hn hm c]
    · rw [mapBlock_hidden' g g' he.shape _ _ _ _ _ h3 h4 i j h]
      exact he.hidden i j h
  rw [e, clean_of_no_loose g hg hl]
  exact ⟨_, rfl⟩

/-- In a grid of valid nodes no node is loose. -/
theorem noLoose_of_all_valid {P : Type} [PointLike P] {g : Grid P} (hg : WF g) (h : ∀ n m, n < g.numN → m < g.numM → valid (g.node n m) = true) :
    NoLoose g := by
  intro n m hn hm _
  have h1 := hg.two_le_numN
  have h2 := hg.two_le_numM
  obtain ⟨i, j, h3, h4, h5⟩ := corner_in_rect 0 (g.numN - 1) 0 (g.numM - 1) n m (by omega) (by omega) (by omega) (by omega)
  refine ⟨i, j, by omega, by omega, ?_, h3⟩
  simp [faceValid, h i j (by omega) (by omega), h (i + 1) j (by omega) (by omega), h i (j + 1) (by omega) (by omega),
    h (i + 1) (j + 1) (by omega) (by omega)]

/-- A saved block that does not cover all that changed: undo brings back the block only. -/
theorem restore_block {P : Type} [PointLike P] (g g' : Grid P) (hg : WF g) (new : Nat → Nat → P) (he : Edited g g' new)
    (bn bm tn tm : Nat) (h1 : bn ≤ tn) (h2 : bm ≤ tm) (h3 : tn ≤ g.numN) (h4 : tm ≤ g.numM)
    (hv : ∀ n m, n < g.numN → m < g.numM → valid (if (bn ≤ n ∧ n < tn) ∧ (bm ≤ m ∧ m < tm) then g.node n m else new n m) = true) :
    ∃ b' g'', (Act.block ⟨bn, bm, tn, tm, savedNodes g bn bm tn tm⟩).restore g' = .ok (b', g'') ∧
      Edited g g'' (fun n m => if (bn ≤ n ∧ n < tn) ∧ (bm ≤ m ∧ m < tm) then g.node n m else new n m) := by
  have e : Edited g (mapBlock g' bn tn bm tm (fun n m _ => (savedNodes g bn bm tn tm).cell (n - bn) (m - bm)))
      (fun n m => if (bn ≤ n ∧ n < tn) ∧ (bm ≤ m ∧ m < tm) then g.node n m else new n m) := by
    refine ⟨he.shape.trans (mapBlock_shape ..), fun n m hn hm => ?_, fun i j h => ?_⟩
    · rw [mapBlock_node]
      by_cases c : (bn ≤ n ∧ n < tn) ∧ bm ≤ m ∧ m < tm
      · rw [if_pos c, if_pos c, savedNodes_node _ _ _ _ _ _ _ (by omega) (by omega), show n - bn + bn = n by omega, show m - bm + bm = m by omega]
      · rw [if_neg c, if_neg c, he.visible n m hn hm]
    · rw [mapBlock_hidden' g g' he.shape _ _ _ _ _ h3 h4 i j h]
      exact he.hidden i j h
  simp only [Act.restore]
  unfold swapAndClean
  rw [swapBlock_ok ⟨bn, bm, tn, tm, savedNodes g bn bm tn tm⟩ g' h1 h2 (by rw [he.shape.numN]; exact h3) (by rw [he.shape.numM]; exact h4) rfl rfl]
  simp only [Res.ok_bind]
  rw [clean_of_no_loose _ (e.shape.wf hg) (noLoose_of_all_valid (e.shape.wf hg) (fun n m hn hm => by
    rw [e.shape.numN] at hn
    rw [e.shape.numM] at hm
    rw [e.visible n m hn hm]
    exact hv n m hn hm))]
  exact ⟨_, _, rfl, e⟩

end Verif.CurviLine
