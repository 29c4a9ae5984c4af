import Verif.CurviLine.Lemmas
import Mathlib.Tactic.Linarith
/-!
# Lemmas about attracting and repelling grid lines
-/
namespace Verif.CurviLine
open Verif.Curvi

variable {K : Type} [Field K] [LinearOrder K] [IsStrictOrderedRing K]

omit [Field K] [LinearOrder K] [IsStrictOrderedRing K] in
theorem copyGrid_eq {P : Type} {g : Grid P} (h : NoHidden g) : copyGrid g = g := by
  obtain ⟨h1, h2, h3, h4⟩ := h
  cases g
  simp only at h1 h2 h3 h4
  subst h1 h2 h3 h4
  rfl

omit [IsStrictOrderedRing K] in
theorem fromFrame_pull (geo : Geo K) (g : Grid (Pt K)) (l : Line) {lo up : Nat × Nat} (f : K) {n m : Nat}
    (h : l.Zone lo up (n, m)) :
    fromFrame geo g n m (pull geo l lo up f (meanDistance geo g l.alongN n m) n m) = pullBy geo g l lo up f n m := by
  unfold pull pullBy pullSize fromFrame
  simp only
  rw [lineFactor_eq geo l h.2.1 h.2.2]
  have ha : (if l.alongN = true then m else n) = l.across (n, m) := by
    unfold Line.across
    split <;> rfl
  rw [ha]
  cases l.alongN
  · simp only [Bool.false_eq_true, if_false, add, scale]
    congr 1 <;> ring
  · simp only [if_true, add, scale]
    congr 1 <;> ring

/-- The node the loop writes in place of `p`. -/
def attracted (geo : Geo K) (g : Grid (Pt K)) (l : Line) (lo up : Nat × Nat) (f : K) (n m : Nat) (p : Pt K) : Pt K :=
  if valid ((copyGrid g).node n m) = true ∧ ¬ l.On (n, m) then add p (pullBy geo (copyGrid g) l lo up f n m) else p

theorem attractNode_ok (geo : Geo K) (g h : Grid (Pt K)) (hs : SameShape g h) (l : Line) (lo up : Nat × Nat) (f : K) {n m : Nat}
    (hn : n < g.numN) (hm : m < g.numM) (hz : l.Zone lo up (n, m)) :
    attractNode geo (copyGrid g) l lo up f n m h =
      .ok { h with cell := upd h.cell (n + h.sn) (m + h.sm) (attracted geo g l lo up f n m (h.node n m)) } := by
  unfold attracted
  have hN : n < (copyGrid g).numN := by
    unfold Grid.numN at *
    show n < g.rows - 0 - 0
    omega
  have hM : m < (copyGrid g).numM := by
    unfold Grid.numM at *
    show m < g.cols - 0 - 0
    omega
  unfold attractNode
  rw [getNode_ok hN hM, Res.ok_bind]
  by_cases hv : valid ((copyGrid g).node n m) = true
  · rw [if_neg (by simp [hv])]
    by_cases ho : l.On (n, m)
    · rw [if_pos ((has_iff l _).2 ho), if_neg (fun c => c.2 ho), upd_same]
    · rw [if_neg (fun c => ho ((has_iff l _).1 c)), averageDistance_ok geo _ _ hN hM, Res.ok_bind,
        transform_ok geo _ _ false hN hM, Res.ok_bind, getNode_ok (by rw [hs.numN]; exact hn) (by rw [hs.numM]; exact hm), Res.ok_bind,
        setNode_ok _ (by rw [hs.numN]; exact hn) (by rw [hs.numM]; exact hm), if_neg Bool.false_ne_true, if_pos ⟨hv, ho⟩,
        fromFrame_pull geo _ l f hz]
  · rw [if_pos (by simp [hv]), if_neg (fun c => hv c.1), upd_same]

/-- What attraction does, with the distances and directions taken from the copy the constructor makes. -/
theorem attract_general (geo : Geo K) (g : Grid (Pt K)) (l : Line) (ls : List Line) (lo up : Nat × Nat) (f : K)
    (hl : l.In g) (hz : ZoneIn lo up g) (hw : l.across lo ≠ l.across up) :
    ∃ g', attract geo g (l :: ls) lo up f = .ok (g', .block ⟨(regionOf l lo up).1.1, (regionOf l lo up).1.2,
        (regionOf l lo up).2.1 + 1, (regionOf l lo up).2.2 + 1, savedNodes g (regionOf l lo up).1.1 (regionOf l lo up).1.2
        ((regionOf l lo up).2.1 + 1) ((regionOf l lo up).2.2 + 1)⟩) ∧
      Edited g g' (fun n m => if l.Zone lo up (n, m) ∧ valid ((copyGrid g).node n m) = true ∧ ¬ l.On (n, m)
        then add (g.node n m) (pullBy geo (copyGrid g) l lo up f n m) else g.node n m) := by
  obtain ⟨r1, r2, r3, r4⟩ := region_in hl hz
  have hne : ¬ g.rows * g.cols = 0 := by
    have hf := hl.first
    unfold Grid.numN Grid.numM at hf
    exact Nat.ne_of_gt (Nat.mul_pos (by omega) (by omega))
  have hdir : ¬ (((!l.alongN) = true ∧ lo.1 = up.1) ∨ (l.alongN = true ∧ lo.2 = up.2)) := by
    unfold Line.across at hw
    cases hN : l.alongN
    · simp only [hN, Bool.false_eq_true, if_false] at hw
      simp [hw]
    · simp only [hN, if_true] at hw
      simp [hw]
  have hb := forBlock g (regionOf l lo up).1.1 ((regionOf l lo up).2.1 + 1) (regionOf l lo up).1.2 ((regionOf l lo up).2.2 + 1)
    (attracted geo g l lo up f) (attractNode geo (copyGrid g) l lo up f) (fun n m h h1 h2 h3 h4 hs =>
      attractNode_ok geo g h hs l lo up f (by omega) (by omega) ((zone_iff l lo up n m).2 ⟨⟨h1, h2⟩, h3, h4⟩))
  refine ⟨mapBlock g (regionOf l lo up).1.1 ((regionOf l lo up).2.1 + 1) (regionOf l lo up).1.2 ((regionOf l lo up).2.2 + 1)
    (attracted geo g l lo up f), ?_, ?_⟩
  · unfold attract
    simp only
    rw [if_neg hne, if_neg hdir, saveBlock_ok g _ _ _ _ (by omega) (by omega) (by omega) (by omega), Res.ok_bind, hb, Res.ok_bind]
  · refine ⟨mapBlock_shape .., fun n m _ _ => ?_, fun i j h => mapBlock_hidden _ _ _ _ _ _ (by omega) (by omega) i j h⟩
    rw [mapBlock_node]
    by_cases hin : l.Zone lo up (n, m)
    · rw [if_pos ((zone_iff l lo up n m).1 hin)]
      unfold attracted
      by_cases c : valid ((copyGrid g).node n m) = true ∧ ¬ l.On (n, m)
      · rw [if_pos c, if_pos ⟨hin, c⟩]
      · rw [if_neg c, if_neg (fun d => c d.2)]
    · rw [if_neg (fun c => hin ((zone_iff l lo up n m).2 c)), if_neg (fun d => hin d.1)]

theorem meanDistance_nonneg (geo : Geo K) (hgeo : geo.Good) (g : Grid (Pt K)) (b : Bool) (n m : Nat) : 0 ≤ meanDistance geo g b n m := by
  unfold meanDistance
  refine div_nonneg (List.sum_nonneg fun x hx => ?_) (Nat.cast_nonneg _)
  obtain ⟨q, _, rfl⟩ := List.mem_map.1 hx
  exact hgeo.dist_nonneg _ _

theorem fading_nonneg (geo : Geo K) (hgeo : geo.Good) (x c lo up : Nat) : 0 ≤ fading geo x c lo up := by
  unfold fading
  split
  · split
    · exact zero_le_one
    · exact hgeo.bell_nonneg _ _
  · exact hgeo.bell_nonneg _ _

/-- Which lines are accepted. -/
def LineOk {P : Type} (g : Grid P) (a b : Nat × Nat) : Prop :=
  (a.1 < g.numN ∧ a.2 < g.numM) ∧ (b.1 < g.numN ∧ b.2 < g.numM) ∧ a ≠ b ∧ (a.1 = b.1 ∨ a.2 = b.2)

omit [Field K] [LinearOrder K] [IsStrictOrderedRing K] in
theorem setLine_ok {P : Type} {g : Grid P} (hN : g.numN ≤ missing) (hM : g.numM ≤ missing) {a b : Nat × Nat} (h : LineOk g a b) :
    setLine g [] a b = .ok [lineOf a b] := by
  obtain ⟨h1, h2, h3, h4⟩ := h
  have hne : ¬ ((min a.1 b.1, min a.2 b.2) = (max a.1 b.1, max a.2 b.2)) := by
    intro c
    simp only [Prod.mk.injEq] at c
    exact h3 (Prod.ext (by omega) (by omega))
  unfold setLine blockFromCorners
  simp only
  rw [if_neg (by omega), if_neg (by omega), if_neg (by omega), Res.ok_bind, if_neg hne, if_neg (by dsimp only; omega)]
  unfold makeLine
  rw [if_neg hne]
  rfl

omit [Field K] [LinearOrder K] [IsStrictOrderedRing K] in
theorem lineOk_of_ok {P : Type} {g : Grid P} (hN : g.numN ≤ missing) (hM : g.numM ≤ missing) {a b : Nat × Nat} {ls : List Line}
    (h : setLine g [] a b = .ok ls) : LineOk g a b ∧ ls = [lineOf a b] := by
  have key : LineOk g a b := by
    unfold setLine at h
    obtain ⟨r, hr, h⟩ := Res.bind_eq_ok.1 h
    have hr' : r = ((min a.1 b.1, min a.2 b.2), (max a.1 b.1, max a.2 b.2)) ∧ ¬ (max a.2 b.2 ≥ g.numM ∨ max a.1 b.1 ≥ g.numN) := by
      unfold blockFromCorners at hr
      simp only at hr
      split at hr
      · cases hr
      · split at hr
        · cases hr
        · split at hr
          · cases hr
          · rename_i h3
            exact ⟨(Res.ok.inj hr).symm, h3⟩
    obtain ⟨rfl, hb⟩ := hr'
    by_cases c : (min a.1 b.1, min a.2 b.2) = (max a.1 b.1, max a.2 b.2)
    · simp only [if_pos c] at h; cases h
    · simp only [if_neg c] at h
      by_cases d : ¬ (min a.1 b.1 = max a.1 b.1 ∨ min a.2 b.2 = max a.2 b.2)
      · rw [if_pos d] at h; cases h
      · refine ⟨by omega, by omega, fun e => c (by rw [e]; simp), by omega⟩
  exact ⟨key, (Res.ok.inj ((setLine_ok hN hM key).symm.trans h)).symm⟩

omit [Field K] [LinearOrder K] [IsStrictOrderedRing K] in
theorem lineOf_in {P : Type} {g : Grid P} {a b : Nat × Nat} (h : LineOk g a b) : (lineOf a b).In g := by
  obtain ⟨h1, h2, h3, h4⟩ := h
  have h3' : a.1 ≠ b.1 ∨ a.2 ≠ b.2 := by
    by_contra c
    exact h3 (Prod.ext (by omega) (by omega))
  refine ⟨?_, ?_, ?_, ?_⟩
  · unfold Line.start Line.stop Line.alongN lineOf
    by_cases c : min a.2 b.2 = max a.2 b.2
    · simp only [c, decide_true, if_true]; omega
    · simp only [c, decide_false, Bool.false_eq_true, if_false]; omega
  · unfold Line.across Line.alongN lineOf
    by_cases c : min a.2 b.2 = max a.2 b.2
    · simp only [c, decide_true, if_true]
    · simp only [c, decide_false, Bool.false_eq_true, if_false]; omega
  · show min a.1 b.1 < _ ∧ min a.2 b.2 < _; omega
  · show max a.1 b.1 < _ ∧ max a.2 b.2 < _; omega

/-- The nodes as the generator of rectangular grids makes them: n counts upwards, m to the right. -/
def Rectangle (g : Grid (Pt K)) (x0 y0 a b : K) : Prop :=
  ∀ n m, n < g.numN → m < g.numM → g.node n m = ⟨x0 + m * a, y0 + n * b⟩ ∧ valid (g.node n m) = true

theorem dist_up (geo : Geo K) (hgeo : geo.Good) (x y h : K) (hh : 0 ≤ h) : geo.dist ⟨x, y + h⟩ ⟨x, y⟩ = h := by
  have h1 := hgeo.dist_sq ⟨x, y + h⟩ ⟨x, y⟩
  have h2 := hgeo.dist_nonneg ⟨x, y + h⟩ ⟨x, y⟩
  rw [show (x - x) ^ 2 + (y + h - y) ^ 2 = h ^ 2 by ring] at h1
  exact (pow_left_inj₀ h2 hh two_ne_zero).1 h1

theorem dist_down (geo : Geo K) (hgeo : geo.Good) (x y h : K) (hh : 0 ≤ h) : geo.dist ⟨x, y⟩ ⟨x, y + h⟩ = h := by
  have h1 := hgeo.dist_sq ⟨x, y⟩ ⟨x, y + h⟩
  have h2 := hgeo.dist_nonneg ⟨x, y⟩ ⟨x, y + h⟩
  rw [show (x - x) ^ 2 + (y - (y + h)) ^ 2 = h ^ 2 by ring] at h1
  exact (pow_left_inj₀ h2 hh two_ne_zero).1 h1

theorem direction_rectangle (geo : Geo K) (hgeo : geo.Good) {g : Grid (Pt K)} {x0 y0 a b : K} (hb : 0 < b) (hr : Rectangle g x0 y0 a b)
    (h2 : 2 ≤ g.numN) {n m : Nat} (hn : n < g.numN) (hm : m < g.numM) : direction geo g n m = ⟨0, 1⟩ := by
  have key : ∃ (y h : K), 0 < h ∧ after g n m = ⟨x0 + m * a, y + h⟩ ∧ before g n m = ⟨x0 + m * a, y⟩ := by
    unfold after before
    by_cases c1 : n + 1 < g.numN
    · rw [if_pos ⟨c1, (hr _ _ c1 hm).2⟩, (hr _ _ c1 hm).1]
      by_cases c2 : 0 < n
      · rw [if_pos ⟨c2, (hr (n - 1) m (by omega) hm).2⟩, (hr (n - 1) m (by omega) hm).1]
        obtain ⟨k, rfl⟩ : ∃ k, n = k + 1 := ⟨n - 1, by omega⟩
        refine ⟨_, 2 * b, by linarith, ?_, rfl⟩
        simp only [Nat.add_sub_cancel]
        push_cast
        congr 1
        ring
      · rw [if_neg (fun c => c2 c.1), (hr n m hn hm).1]
        refine ⟨_, b, hb, ?_, rfl⟩
        push_cast
        congr 1
        ring
    · rw [if_neg (fun c => c1 c.1), if_pos ⟨by omega, (hr (n - 1) m (by omega) hm).2⟩, (hr (n - 1) m (by omega) hm).1,
        (hr n m hn hm).1]
      obtain ⟨k, rfl⟩ : ∃ k, n = k + 1 := ⟨n - 1, by omega⟩
      refine ⟨_, b, hb, ?_, rfl⟩
      simp only [Nat.add_sub_cancel]
      push_cast
      congr 1
      ring
  obtain ⟨y, h, hh, h1, h3⟩ := key
  unfold direction
  rw [h1, h3, dist_up geo hgeo _ _ _ hh.le, if_pos hh]
  unfold scale sub
  congr 1
  · simp
  · field_simp
    ring

theorem meanDistance_rectangle (geo : Geo K) (hgeo : geo.Good) {g : Grid (Pt K)} {x0 y0 a b : K} (hb : 0 < b) (hr : Rectangle g x0 y0 a b)
    (h2 : 2 ≤ g.numN) {n m : Nat} (hn : n < g.numN) (hm : m < g.numM) : meanDistance geo g true n m = b := by
  have up : n + 1 < g.numN → geo.dist (g.node n m) (g.node (n + 1) m) = b := by
    intro c
    rw [(hr n m hn hm).1, (hr (n + 1) m c hm).1]
    push_cast
    rw [show y0 + ((n : K) + 1) * b = y0 + n * b + b by ring]
    exact dist_down geo hgeo _ _ _ hb.le
  have down : 0 < n → geo.dist (g.node n m) (g.node (n - 1) m) = b := by
    intro c
    obtain ⟨k, rfl⟩ : ∃ k, n = k + 1 := ⟨n - 1, by omega⟩
    rw [Nat.add_sub_cancel, (hr (k + 1) m hn hm).1, (hr k m (by omega) hm).1]
    push_cast
    rw [show y0 + ((k : K) + 1) * b = y0 + k * b + b by ring]
    exact dist_up geo hgeo _ _ _ hb.le
  unfold meanDistance neighbours
  rw [if_pos rfl]
  by_cases c1 : n + 1 < g.numN
  · by_cases c2 : 0 < n
    · rw [if_pos c1, if_pos c2]
      simp only [List.cons_append, List.nil_append, List.filter_cons, (hr (n + 1) m c1 hm).2, (hr (n - 1) m (by omega) hm).2, if_true,
        List.filter_nil, List.map_cons, List.map_nil, List.sum_cons, List.sum_nil, up c1, down c2, List.length_cons, List.length_nil]
      push_cast
      field_simp
      ring
    · rw [if_pos c1, if_neg c2]
      simp only [List.nil_append, List.filter_cons, (hr (n + 1) m c1 hm).2, if_true,
        List.filter_nil, List.map_cons, List.map_nil, List.sum_cons, List.sum_nil, up c1, List.length_cons, List.length_nil]
      simp
  · have c2 : 0 < n := by omega
    rw [if_neg c1, if_pos c2]
    simp only [List.append_nil, List.filter_cons, (hr (n - 1) m (by omega) hm).2, if_true,
      List.filter_nil, List.map_cons, List.map_nil, List.sum_cons, List.sum_nil, down c2, List.length_cons, List.length_nil]
    simp

/-- On such a grid a line in the n-direction pushes the nodes beside it away, by `f * b` times the smoothing factor. -/
theorem pulled_rectangle (geo : Geo K) (hgeo : geo.Good) {g : Grid (Pt K)} {x0 y0 a b : K} (hb : 0 < b) (hr : Rectangle g x0 y0 a b)
    (h2 : 2 ≤ g.numN) {n m : Nat} (hn : n < g.numN) (hm : m < g.numM) (l : Line) (hl : l.alongN = true) (lo up : Nat × Nat) (f : K) :
    pulled geo g l lo up f n m =
      ⟨x0 + m * a - f * b * fading geo m l.const lo.2 up.2 * (if m < l.const then 1 else -1), y0 + n * b⟩ := by
  unfold pulled pullBy pullSize normal
  rw [hl, if_pos rfl, direction_rectangle geo hgeo hb hr h2 hn hm, meanDistance_rectangle geo hgeo hb hr h2 hn hm, (hr n m hn hm).1]
  unfold Line.across add scale
  rw [hl]
  simp only [if_true]
  congr 1
  · ring
  · ring

theorem bell_pos {d m : Nat} (h : d < m) : 0 < realGeo.bell d m := by
  have hm : (0 : ℝ) < m := by exact_mod_cast Nat.lt_of_le_of_lt (Nat.zero_le d) h
  have hd : (d : ℝ) < m := by exact_mod_cast h
  have h1 : Real.pi * d / m < Real.pi := by
    rw [div_lt_iff₀ hm]
    exact mul_lt_mul_of_pos_left hd Real.pi_pos
  have h0 : 0 ≤ Real.pi * d / m := div_nonneg (mul_nonneg Real.pi_pos.le (Nat.cast_nonneg _)) hm.le
  have := Real.strictAntiOn_cos ⟨h0, h1.le⟩ ⟨Real.pi_pos.le, le_refl _⟩ h1
  rw [Real.cos_pi] at this
  show 0 < (1 + _) / 2
  linarith

end Verif.CurviLine
