import Verif.CurviLine.AttractLemmas
/-!
# C57: attracting and repelling grid lines
-/
namespace Verif.CurviLine
open Verif.Curvi

variable {K : Type} [Field K] [LinearOrder K] [IsStrictOrderedRing K]

/-- C57, what moves: exactly the valid nodes of the zone that are not on the line, each by `pullBy`; every other node,
the dimensions and the hidden nodes stay. What is missing: a grid with hidden lines (`attract_misreads_hidden_line`). -/
theorem attract_exact_partial (geo : Geo K) (g : Grid (Pt K)) (hh : NoHidden g) (l : Line) (ls : List Line) (lo up : Nat × Nat) (f : K)
    (hl : l.In g) (hz : ZoneIn lo up g) (hw : l.across lo ≠ l.across up) :
    ∃ g' u, attract geo g (l :: ls) lo up f = .ok (g', u) ∧
      Edited g g' (fun n m => if l.Zone lo up (n, m) ∧ valid (g.node n m) = true ∧ ¬ l.On (n, m)
        then pulled geo g l lo up f n m else g.node n m) := by
  obtain ⟨g', h1, h2⟩ := attract_general geo g l ls lo up f hl hz hw
  rw [copyGrid_eq hh] at h2
  exact ⟨g', _, h1, h2⟩

/-- C57, undo: on a grid without loose nodes, undoing brings back every node. What is missing: loose nodes are lost, as
with every other undo of a grid (C19). -/
theorem attract_undo_partial (geo : Geo K) (g : Grid (Pt K)) (hg : WF g) (hn : NoLoose g) (l : Line) (ls : List Line) (lo up : Nat × Nat)
    (f : K) (hl : l.In g) (hz : ZoneIn lo up g) (hw : l.across lo ≠ l.across up) :
    ∃ g' u u', attract geo g (l :: ls) lo up f = .ok (g', u) ∧ u.restore g' = .ok (u', g) := by
  obtain ⟨g', h1, h2⟩ := attract_general geo g l ls lo up f hl hz hw
  obtain ⟨r1, r2, r3, r4⟩ := region_in hl hz
  obtain ⟨u', hu⟩ := undo_block g g' hg hn _ h2 _ _ _ _ (by omega : (regionOf l lo up).1.1 ≤ (regionOf l lo up).2.1 + 1)
    (by omega : (regionOf l lo up).1.2 ≤ (regionOf l lo up).2.2 + 1) (by omega) (by omega) (fun n m _ _ ho => by
      rw [if_neg (fun c => ho ((zone_iff l lo up n m).1 c.1))])
  exact ⟨g', _, u', h1, hu⟩

omit [IsStrictOrderedRing K] in
/-- C57, the edge of the zone: nodes there stay where they are, unless the line itself lies at that edge. -/
theorem attract_edge (geo : Geo K) (hgeo : geo.Good) (g : Grid (Pt K)) (l : Line) (lo up : Nat × Nat) (f : K) (n m : Nat)
    (h : (l.across (n, m) = l.across lo ∧ l.across lo < l.const) ∨ (l.across (n, m) = l.across up ∧ l.const < l.across up)) :
    pulled geo g l lo up f n m = g.node n m := by
  have hf : fading geo (l.across (n, m)) l.const (l.across lo) (l.across up) = 0 := by
    unfold fading
    rcases h with ⟨h1, h2⟩ | ⟨h1, h2⟩
    · rw [if_pos (by omega), if_neg (by omega), h1]
      exact hgeo.bell_edge _ (by omega)
    · rw [if_neg (by omega), h1]
      exact hgeo.bell_edge _ (by omega)
  unfold pulled pullBy pullSize
  rw [hf]
  simp [add, scale]

/-- C57, the sense, for a line in the m-direction: with a positive parameter a node before the line moves towards
increasing n and a node behind it towards decreasing n, that is towards the line. What is missing: lines in the
n-direction, where the sense depends on the orientation of the grid (`attract_repels_on_rectangles`). -/
theorem attract_towards_partial (geo : Geo K) (hgeo : geo.Good) (g : Grid (Pt K)) (l : Line) (hl : l.alongN = false) (lo up : Nat × Nat)
    (f : K) (hf : 0 ≤ f) (n m : Nat) :
    ∃ c : K, 0 ≤ c ∧ pulled geo g l lo up f n m = add (g.node n m)
      (if n < l.const then scale (sub (after g n m) (before g n m)) c else scale (sub (before g n m) (after g n m)) c) := by
  have hs : 0 ≤ f * meanDistance geo g l.alongN n m * fading geo (l.across (n, m)) l.const (l.across lo) (l.across up) :=
    mul_nonneg (mul_nonneg hf (meanDistance_nonneg geo hgeo g _ n m)) (fading_nonneg geo hgeo _ _ _ _)
  have ha : l.across (n, m) = n := by unfold Line.across; rw [hl]; rfl
  by_cases hd : geo.dist (after g n m) (before g n m) > 0
  · refine ⟨f * meanDistance geo g l.alongN n m * fading geo (l.across (n, m)) l.const (l.across lo) (l.across up) *
      (1 / geo.dist (after g n m) (before g n m)), mul_nonneg hs (by positivity), ?_⟩
    unfold pulled pullBy pullSize direction
    rw [if_pos hd, hl, ha]
    simp only [Bool.false_eq_true, if_false]
    split
    · simp only [add, scale, sub]
      congr 1 <;> ring
    · simp only [add, scale, sub]
      congr 1 <;> ring
  · refine ⟨0, le_refl _, ?_⟩
    unfold pulled pullBy direction
    rw [if_neg hd, hl]
    simp only [Bool.false_eq_true, if_false]
    split <;> simp [add, scale]

/-- C57, what is accepted: the line between two different nodes of one grid line of the grid, and a block with two
different corners in the grid that has some width across the line. Everything else is refused. -/
theorem attract_accepted_iff (geo : Geo K) (g : Grid (Pt K)) (hN : g.numN ≤ missing) (hM : g.numM ≤ missing) (f : K) (a b c d : Nat × Nat) :
    (∃ r, apiAttract geo g f a b c d = .ok r) ↔
      ((a.1 < g.numN ∧ a.2 < g.numM) ∧ (b.1 < g.numN ∧ b.2 < g.numM) ∧ a ≠ b ∧ (a.1 = b.1 ∨ a.2 = b.2)) ∧
      ((c.1 < g.numN ∧ c.2 < g.numM) ∧ (d.1 < g.numN ∧ d.2 < g.numM) ∧ (if a.2 = b.2 then c.2 ≠ d.2 else c.1 ≠ d.1)) := by
  have hal : (lineOf a b).alongN = decide (a.2 = b.2) := by
    show decide (min a.2 b.2 = max a.2 b.2) = _
    by_cases e : a.2 = b.2
    · simp [e]
    · rw [decide_eq_false e, decide_eq_false (by omega)]
  constructor
  · rintro ⟨r, h⟩
    unfold apiAttract at h
    obtain ⟨ls, h1, h⟩ := Res.bind_eq_ok.1 h
    obtain ⟨r', h2, h⟩ := Res.bind_eq_ok.1 h
    obtain ⟨hl, rfl⟩ := lineOk_of_ok hN hM h1
    obtain ⟨k1, k2, k3⟩ := (block_accepted_iff g c d hN hM).1 ⟨r', h2⟩
    rw [setBlock_ok g c d k1 k2 hN hM k3] at h2
    obtain rfl := Res.ok.inj h2
    refine ⟨hl, k1, k2, ?_⟩
    unfold attract at h
    split at h
    · cases h
    · simp only [hal] at h
      by_cases e : a.2 = b.2
      · rw [if_pos e]
        intro q
        rw [if_pos (Or.inr ⟨by simpa using e, by omega⟩)] at h
        cases h
      · rw [if_neg e]
        intro q
        rw [if_pos (Or.inl ⟨by simpa using e, by omega⟩)] at h
        cases h
  · rintro ⟨hl, k1, k2, k3⟩
    have hcd : c ≠ d := by
      rintro rfl
      split at k3 <;> exact k3 rfl
    have hw : (lineOf a b).across (min c.1 d.1, min c.2 d.2) ≠ (lineOf a b).across (max c.1 d.1, max c.2 d.2) := by
      unfold Line.across
      rw [hal]
      by_cases e : a.2 = b.2
      · rw [if_pos e] at k3
        simp only [e, decide_true, if_true]; omega
      · rw [if_neg e] at k3
        simp only [e, decide_false, Bool.false_eq_true, if_false]; omega
    obtain ⟨g', h, -⟩ := attract_general geo g (lineOf a b) [] (min c.1 d.1, min c.2 d.2) (max c.1 d.1, max c.2 d.2) f (lineOf_in hl)
      ⟨by show min _ _ ≤ max _ _; omega, by show min _ _ ≤ max _ _; omega, by show max _ _ < _ ∧ max _ _ < _; omega⟩ hw
    unfold apiAttract
    rw [setLine_ok hN hM hl, Res.ok_bind, setBlock_ok g c d k1 k2 hN hM hcd, Res.ok_bind]
    exact ⟨_, h⟩

/-- C57 fails for lines in the n-direction: on every rectangular grid as the generator makes it
(`CurvilinearGridRectangular.cpp:108-116`), a positive parameter, documented as attraction (`MeshKernel.hpp:430`), moves
every node strictly inside the zone further away from the line. -/
theorem attract_repels_on_rectangles (g : Grid (Pt ℝ)) (x0 y0 dx dy : ℝ) (hdx : 0 < dx) (hdy : 0 < dy)
    (hr : ∀ n m, n < g.numN → m < g.numM → g.node n m = ⟨x0 + m * dx, y0 + n * dy⟩ ∧ valid (g.node n m) = true)
    (hh : NoHidden g) (l : Line) (ls : List Line) (hl : l.In g) (hn : l.alongN = true) (lo up : Nat × Nat) (hz : ZoneIn lo up g)
    (f : ℝ) (hf : 0 < f) (n m : Nat) (h1 : l.start ≤ n ∧ n ≤ l.stop) (h2 : lo.2 < m ∧ m < up.2) (h3 : m ≠ l.const) :
    ∃ g' u, attract realGeo g (l :: ls) lo up f = .ok (g', u) ∧ (g'.node n m).y = (g.node n m).y ∧
      |(g.node n m).x - (g.node n l.const).x| < |(g'.node n m).x - (g.node n l.const).x| := by
  have hstop : l.stop < g.numN := by
    have := hl.last
    unfold Line.stop
    rw [hn, if_pos rfl]
    exact this.1
  have hconst : l.const < g.numM := by
    have := hl.first
    unfold Line.const
    rw [hn, if_pos rfl]
    exact this.2
  have hm : m < g.numM := by have := hz.inside; omega
  have h2' : 2 ≤ g.numN := by have := hl.lt; omega
  have hal : ∀ v, l.across v = v.2 := fun v => by unfold Line.across; rw [hn]; rfl
  obtain ⟨g', u, h, he⟩ := attract_exact_partial realGeo g hh l ls lo up f hl hz (by rw [hal, hal]; omega)
  refine ⟨g', u, h, ?_⟩
  have hN : n < g.numN := by omega
  have hzone : l.Zone lo up (n, m) := by
    refine ⟨?_, ?_⟩
    · unfold Line.along; rw [hn]; exact h1
    · rw [hal, hal, hal]; exact ⟨h2.1.le, h2.2.le⟩
  have hoff : ¬ l.On (n, m) := fun c => h3 (by have := c.1; rwa [hal] at this)
  rw [he.visible n m hN hm, if_pos ⟨hzone, (hr n m hN hm).2, hoff⟩,
    pulled_rectangle realGeo realGeo_good hdy hr h2' hN hm l hn lo up f, (hr n m hN hm).1, (hr n l.const hN hconst).1]
  refine ⟨rfl, ?_⟩
  simp only
  by_cases c : m < l.const
  · have hp : 0 < fading realGeo m l.const lo.2 up.2 := by
      unfold fading
      rw [if_pos (by omega), if_neg (by omega)]
      exact bell_pos (by omega)
    have hs : 0 < f * dy * fading realGeo m l.const lo.2 up.2 := by positivity
    have hx : (m : ℝ) * dx < l.const * dx := mul_lt_mul_of_pos_right (by exact_mod_cast c) hdx
    rw [if_pos c, abs_of_neg (by linarith), abs_of_neg (by linarith)]
    linarith
  · have c' : l.const < m := by omega
    have hp : 0 < fading realGeo m l.const lo.2 up.2 := by
      unfold fading
      rw [if_neg (by omega)]
      exact bell_pos (by omega)
    have hs : 0 < f * dy * fading realGeo m l.const lo.2 up.2 := by positivity
    have hx : (l.const : ℝ) * dx < m * dx := mul_lt_mul_of_pos_right (by exact_mod_cast c') hdx
    rw [if_neg c, abs_of_pos (by linarith), abs_of_pos (by linarith)]
    linarith

/-- A grid with a hidden row of invalid nodes below, as undoing the addition of a row leaves it (`g.sn = 1`): the first
visible row does not move at all, whatever the parameter. -/
theorem attract_skips_first_row (geo : Geo K) (g : Grid (Pt K)) (h3 : ∀ j, valid (g.cell 0 j) = false)
    (l : Line) (ls : List Line) (lo up : Nat × Nat) (f : K) (hl : l.In g) (hz : ZoneIn lo up g) (hw : l.across lo ≠ l.across up) :
    ∃ g' u, attract geo g (l :: ls) lo up f = .ok (g', u) ∧ ∀ m, m < g.numM → g'.node 0 m = g.node 0 m := by
  obtain ⟨g', h, he⟩ := attract_general geo g l ls lo up f hl hz hw
  refine ⟨g', _, h, fun m hm => ?_⟩
  have hN : 0 < g.numN := by have := hl.first; omega
  rw [he.visible 0 m hN hm, if_neg]
  rintro ⟨-, c, -⟩
  have : (copyGrid g).node 0 m = g.cell 0 m := rfl
  rw [this, h3] at c
  cases c

/-- Three rows of five nodes. -/
def plainGrid : Grid (Pt ℝ) := ⟨3, 5, fun i j => ⟨j, i⟩, 0, 0, 0, 0⟩

/-- The same grid with a hidden row below, as undoing the addition of a row leaves it. -/
noncomputable def hiddenGrid : Grid (Pt ℝ) := ⟨4, 5, fun i j => if i = 0 then inv else ⟨j, (i - 1 : Nat)⟩, 1, 0, 0, 0⟩

theorem plain_valid (i j : Nat) : valid (⟨(j : ℝ), (i : ℝ)⟩ : Pt ℝ) = true := by
  have h1 : (0 : ℝ) ≤ i := Nat.cast_nonneg _
  have h2 : (0 : ℝ) ≤ j := Nat.cast_nonneg _
  show (decide ((j : ℝ) ≠ -999) && decide ((i : ℝ) ≠ -999)) = true
  rw [decide_eq_true (by linarith), decide_eq_true (by linarith)]
  rfl

/-- C57 fails after an undo: two grids with the same nodes, one of them with a hidden row, give different results,
because the copy from which distances and directions are taken loses the offset (`CurvilinearGrid.cpp:42-51`). -/
theorem attract_misreads_hidden_line :
    plainGrid.numN = hiddenGrid.numN ∧ plainGrid.numM = hiddenGrid.numM ∧
      (∀ n m, n < plainGrid.numN → m < plainGrid.numM → plainGrid.node n m = hiddenGrid.node n m) ∧
      ∃ g g' u u', attract realGeo plainGrid [⟨(0, 2), (2, 2)⟩] (0, 0) (2, 4) 1 = .ok (g, u) ∧
        attract realGeo hiddenGrid [⟨(0, 2), (2, 2)⟩] (0, 0) (2, 4) 1 = .ok (g', u') ∧ g.node 0 1 ≠ g'.node 0 1 := by
  have hl : (⟨(0, 2), (2, 2)⟩ : Line).In plainGrid := ⟨by decide, by decide, by decide, by decide⟩
  have hl' : (⟨(0, 2), (2, 2)⟩ : Line).In hiddenGrid := ⟨by decide, by decide, ⟨by show 0 < 4 - 1 - 0; decide, by show 2 < 5 - 0 - 0; decide⟩,
    ⟨by show 2 < 4 - 1 - 0; decide, by show 2 < 5 - 0 - 0; decide⟩⟩
  have hnode : ∀ n m, n < plainGrid.numN → m < plainGrid.numM → plainGrid.node n m = hiddenGrid.node n m := by
    intro n m _ _
    rfl
  refine ⟨rfl, rfl, hnode, ?_⟩
  obtain ⟨g, u, h, -, hlt⟩ := attract_repels_on_rectangles plainGrid 0 0 1 1 one_pos one_pos
    (fun n m _ _ => ⟨by show (⟨(m : ℝ), (n : ℝ)⟩ : Pt ℝ) = _; simp, plain_valid n m⟩) ⟨rfl, rfl, rfl, rfl⟩ ⟨(0, 2), (2, 2)⟩ [] hl rfl
    (0, 0) (2, 4) ⟨by decide, by decide, by decide⟩ 1 one_pos 0 1 (by decide) (by decide) (by decide)
  obtain ⟨g', u', h', hs⟩ := attract_skips_first_row realGeo hiddenGrid (fun j => PointLike.valid_inv) ⟨(0, 2), (2, 2)⟩ [] (0, 0) (2, 4) 1 hl'
    ⟨by decide, by decide, ⟨by show 2 < 4 - 1 - 0; decide, by show 4 < 5 - 0 - 0; decide⟩⟩ (by decide)
  refine ⟨g, g', u, u', h, h', fun c => ?_⟩
  rw [c, hs 1 (by show 1 < 5 - 0 - 0; decide), ← hnode 0 1 (by decide) (by decide)] at hlt
  exact lt_irrefl _ hlt

/-! The hypotheses can be met. -/

example : NoHidden plainGrid := ⟨rfl, rfl, rfl, rfl⟩
example : (⟨(0, 2), (2, 2)⟩ : Line).In plainGrid := ⟨by decide, by decide, by decide, by decide⟩
example : (⟨(1, 0), (1, 4)⟩ : Line).In plainGrid ∧ (⟨(1, 0), (1, 4)⟩ : Line).alongN = false := ⟨⟨by decide, by decide, by decide, by decide⟩, rfl⟩
example : ZoneIn (0, 0) (2, 4) plainGrid := ⟨by decide, by decide, by decide⟩
example : (⟨(0, 2), (2, 2)⟩ : Line).across (0, 0) ≠ (⟨(0, 2), (2, 2)⟩ : Line).across (2, 4) := by decide
example : (⟨(0, 2), (2, 2)⟩ : Line).across (1, 0) = (⟨(0, 2), (2, 2)⟩ : Line).across (0, 0) := by decide
example : realGeo.Good := realGeo_good
example : WF plainGrid := ⟨by decide, by decide⟩

example : NoLoose plainGrid := by
  intro n m hn hm _
  have hn' : n < 3 := hn
  have hm' : m < 5 := hm
  obtain ⟨i, j, h1, h2, h3⟩ := corner_in_rect 0 2 0 4 n m (by omega) (by omega) (by omega) (by omega)
  refine ⟨i, j, show i + 1 < 3 by omega, show j + 1 < 5 by omega, ?_, h1⟩
  have := fun i j => plain_valid i j
  simp only [faceValid, plainGrid, Grid.node, this, Bool.and_self]

end Verif.CurviLine
