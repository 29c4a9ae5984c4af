import Verif.CurviLine.ShiftLemmas
import Verif.CurviLine.SessionModel
/-!
# C58: shifting a grid line
-/
namespace Verif.CurviLine
open Verif.Curvi

variable {K : Type} [Field K] [LinearOrder K]

/-! Lemmas. -/

theorem share_zero (eps : K) {orig g : Grid (Pt K)} {l : Line} (h : ∀ j, moveAt orig g l j = ⟨0, 0⟩) (j : Nat) :
    share eps orig g l j = ⟨0, 0⟩ := by
  unfold share
  simp only [h]
  split
  · rfl
  · simp [add, scale]

theorem share_knot (eps : K) {orig g : Grid (Pt K)} {l : Line} {j : Nat} (hj : j = l.start ∨ j = l.stop ∨ (l.start ≤ j ∧ knot eps orig g l j = true)) :
    share eps orig g l j = moveAt orig g l j := by
  unfold share
  by_cases c : j = l.stop
  · rw [if_pos c]
  · rw [if_neg c]
    have hl : lastKnot (knot eps orig g l) l.start j = j := by
      rcases hj with rfl | hj | ⟨h1, h2⟩
      · exact lastKnot_small _ (Nat.le_refl _)
      · exact absurd hj c
      · cases j with
        | zero =>
          show l.start = 0
          omega
        | succ q =>
          unfold lastKnot
          split
          · omega
          · rfl
    simp only [hl, Nat.sub_self, Nat.cast_zero, zero_div]
    simp [add, scale]

theorem frame_id (geo : Geo K) (hgeo : geo.Good) (g : Grid (Pt K)) (n m : Nat) (h : 0 < geo.dist (after g n m) (before g n m)) (v : Pt K) :
    fromFrame geo g n m (inFrame geo g n m v) = v := by
  have hsq := hgeo.dist_sq (after g n m) (before g n m)
  have hunit : (direction geo g n m).x ^ 2 + (direction geo g n m).y ^ 2 = 1 := by
    unfold direction
    rw [if_pos h]
    unfold scale sub
    simp only
    have hne := h.ne'
    field_simp
    rw [← hsq]
  unfold fromFrame inFrame normal add scale
  generalize direction geo g n m = d at hunit
  obtain ⟨vx, vy⟩ := v
  simp only
  congr 1
  · linear_combination vx * hunit
  · linear_combination vy * hunit

theorem fading_line (geo : Geo K) (hgeo : geo.Good) (c lo up : Nat) : fading geo c c lo up = 1 := by
  unfold fading
  rw [if_pos (Nat.le_refl _)]
  split
  · rfl
  · rw [Nat.sub_self]; exact hgeo.bell_line _

theorem carried_on (geo : Geo K) (hgeo : geo.Good) (eps : K) {orig g : Grid (Pt K)} {l : Line} {lo up : Nat × Nat} {n m : Nat}
    (ho : l.On (n, m)) (h : 0 < geo.dist (after orig n m) (before orig n m)) :
    carried geo eps orig g l lo up n m = add (orig.node n m) (share eps orig g l (l.along (n, m))) := by
  have e : (n, m) = l.nodeAt (l.along (n, m)) := by
    rw [nodeAt_eq]
    exact (eq_at_iff l (n, m) _ _).2 ⟨ho.1, rfl⟩
  unfold carried
  simp only
  rw [ho.1, fading_line geo hgeo, ← e]
  have : ∀ v : Pt K, scale v 1 = v := fun v => by unfold scale; simp
  rw [this, frame_id geo hgeo orig n m h]

theorem carried_zero (geo : Geo K) (eps : K) {orig g : Grid (Pt K)} {l : Line} {lo up : Nat × Nat} {n m : Nat}
    (h : share eps orig g l (l.along (n, m)) = ⟨0, 0⟩ ∨ fading geo (l.across (n, m)) l.const (l.across lo) (l.across up) = 0) :
    carried geo eps orig g l lo up n m = orig.node n m := by
  unfold carried
  simp only
  rcases h with h | h
  · rw [h]; simp [inFrame, fromFrame, add, scale]
  · rw [h]; simp [fromFrame, add, scale]

theorem knots_before [IsStrictOrderedRing K] {eps : K} (heps : 0 < eps) {orig g : Grid (Pt K)} {l : Line} (hl : l.In g)
    (hoff : ∀ n m, n < g.numN → m < g.numM → ¬ l.On (n, m) → g.node n m = orig.node n m) :
    ∀ j, j < l.start → knot eps orig g l j = false := by
  intro j hj
  apply knot_of_zero heps
  have hin : (l.nodeAt j).1 < g.numN ∧ (l.nodeAt j).2 < g.numM := by
    have h1 := hl.first
    have h2 := hl.last
    have h3 := hl.lt
    unfold Line.nodeAt Line.start Line.stop Line.const at *
    cases hN : l.alongN
    · simp only [hN, Bool.false_eq_true, if_false] at *; omega
    · simp only [hN, if_true] at *; omega
  unfold moveAt
  rw [hoff _ _ hin.1 hin.2 (nodeAt_not_on l hj)]
  simp [sub]

variable [IsStrictOrderedRing K]

/-! ## The property -/

/-- C58, what moves: once nodes of the line have been moved, the valid nodes of the zone are carried along as `carried`
says, each node of the line outside the zone gets its interpolated share, and nothing else changes. `orig` is the grid
at the start of the session; elsewhere than on the line the grid is still the same. -/
theorem shift_exact (geo : Geo K) {eps : K} (heps : 0 < eps) {orig g : Grid (Pt K)} {l : Line} (ls : List Line) {lo up : Nat × Nat}
    (hf : Fits orig g l lo up) (hoff : ∀ n m, n < g.numN → m < g.numM → ¬ l.On (n, m) → g.node n m = orig.node n m) :
    ∃ g' u, shift geo eps orig g (l :: ls) lo up = .ok (g', u) ∧
      Edited g g' (fun n m => if l.Zone lo up (n, m) ∧ valid (orig.node n m) = true then carried geo eps orig g l lo up n m
        else if l.On (n, m) then add (orig.node n m) (share eps orig g l (l.along (n, m)))
        else g.node n m) := by
  obtain ⟨g', h1, h2⟩ := shift_general geo eps ls hf (knots_before heps hf.line hoff)
  refine ⟨g', _, h1, h2.congr fun n m _ _ => ?_⟩
  unfold shiftedTo
  by_cases z : l.Zone lo up (n, m) ∧ valid (orig.node n m) = true
  · have := z.1.1.2
    rw [if_pos ⟨z.1, by omega, z.2⟩, if_pos z]
  · rw [if_neg (fun w => z ⟨w.1, w.2.2⟩), if_neg z]
    by_cases o : l.On (n, m)
    · have := o.2.2
      rw [if_pos ⟨o, by omega⟩, if_pos o]
    · rw [if_neg (fun w => o w.1), if_neg o]

/-- C58, the moved nodes: a node of the line that was moved noticeably, and each end of the line, is afterwards exactly
where it was put. What is missing: a node whose two neighbours in the n-direction coincide. -/
theorem shift_keeps_moved_nodes_partial (geo : Geo K) (hgeo : geo.Good) {eps : K} (heps : 0 < eps) {orig g : Grid (Pt K)} {l : Line}
    (ls : List Line) {lo up : Nat × Nat} (hf : Fits orig g l lo up)
    (hoff : ∀ n m, n < g.numN → m < g.numM → ¬ l.On (n, m) → g.node n m = orig.node n m) {n m : Nat} (hn : n < g.numN) (hm : m < g.numM)
    (ho : l.On (n, m)) (hk : l.along (n, m) = l.start ∨ l.along (n, m) = l.stop ∨
      eps ≤ |(g.node n m).x - (orig.node n m).x| ∨ eps ≤ |(g.node n m).y - (orig.node n m).y|)
    (hd : 0 < geo.dist (after orig n m) (before orig n m)) :
    ∃ g' u, shift geo eps orig g (l :: ls) lo up = .ok (g', u) ∧ g'.node n m = g.node n m := by
  obtain ⟨g', u, h1, h2⟩ := shift_exact geo heps ls hf hoff
  refine ⟨g', u, h1, ?_⟩
  have e : (n, m) = l.nodeAt (l.along (n, m)) := by
    rw [nodeAt_eq]
    exact (eq_at_iff l (n, m) _ _).2 ⟨ho.1, rfl⟩
  have hmv : moveAt orig g l (l.along (n, m)) = sub (g.node n m) (orig.node n m) := by
    unfold moveAt
    rw [← e]
  have hsh : share eps orig g l (l.along (n, m)) = sub (g.node n m) (orig.node n m) := by
    rw [share_knot, hmv]
    rcases hk with h | h | h
    · exact Or.inl h
    · exact Or.inr (Or.inl h)
    · refine Or.inr (Or.inr ⟨ho.2.1, ?_⟩)
      unfold knot
      rw [hmv]
      unfold sub
      rcases h with h | h
      · simp [not_lt.2 h]
      · simp [not_lt.2 h]
  have hcancel : add (orig.node n m) (sub (g.node n m) (orig.node n m)) = g.node n m := by
    unfold add sub
    simp
  rw [h2.visible n m hn hm]
  by_cases z : l.Zone lo up (n, m) ∧ valid (orig.node n m) = true
  · rw [if_pos z, carried_on geo hgeo eps ho hd, hsh, hcancel]
  · rw [if_neg z, if_pos ho, hsh, hcancel]

/-- C58, the edge of the zone: nodes there stay, unless the line lies at that edge. -/
theorem shift_edge (geo : Geo K) (hgeo : geo.Good) {eps : K} (heps : 0 < eps) {orig g : Grid (Pt K)} {l : Line}
    (ls : List Line) {lo up : Nat × Nat} (hf : Fits orig g l lo up)
    (hoff : ∀ n m, n < g.numN → m < g.numM → ¬ l.On (n, m) → g.node n m = orig.node n m) {n m : Nat} (hn : n < g.numN) (hm : m < g.numM)
    (h : (l.across (n, m) = l.across lo ∧ l.across lo < l.const) ∨ (l.across (n, m) = l.across up ∧ l.const < l.across up)) :
    ∃ g' u, shift geo eps orig g (l :: ls) lo up = .ok (g', u) ∧ g'.node n m = g.node n m := by
  obtain ⟨g', u, h1, h2⟩ := shift_exact geo heps ls hf hoff
  refine ⟨g', u, h1, ?_⟩
  have ho : ¬ l.On (n, m) := fun o => by have := o.1; omega
  have hfade : fading geo (l.across (n, m)) l.const (l.across lo) (l.across up) = 0 := by
    unfold fading
    rcases h with ⟨k1, k2⟩ | ⟨k1, k2⟩
    · rw [if_pos (by omega), if_neg (by omega), k1]
      exact hgeo.bell_edge _ (by omega)
    · rw [if_neg (by omega), k1]
      exact hgeo.bell_edge _ (by omega)
  rw [h2.visible n m hn hm, carried_zero geo eps (Or.inr hfade), if_neg ho, hoff n m hn hm ho]
  split <;> rfl

/-- C58, nothing moved: without any move of a node, shifting changes nothing. -/
theorem shift_nothing (geo : Geo K) {eps : K} (heps : 0 < eps) {orig g : Grid (Pt K)} {l : Line} (ls : List Line) {lo up : Nat × Nat}
    (hf : Fits orig g l lo up) (hsame : ∀ n m, n < g.numN → m < g.numM → g.node n m = orig.node n m) :
    ∃ u, shift geo eps orig g (l :: ls) lo up = .ok (g, u) := by
  obtain ⟨g', u, h1, h2⟩ := shift_exact geo heps ls hf (fun n m hn hm _ => hsame n m hn hm)
  have hg : g' = g := by
    refine Grid.ext_node h2.shape (fun n m hn hm => ?_) h2.hidden
    rw [h2.visible n m hn hm]
    have hz : ∀ j, j ≤ l.stop → moveAt orig g l j = ⟨0, 0⟩ := by
      intro j hj
      have hv := hf.at_in (i := l.const) (j := j) (Or.inr rfl) hj
      unfold moveAt
      rw [nodeAt_eq, hsame _ _ hv.1 hv.2]
      simp [sub]
    have hsh : l.along (n, m) ≤ l.stop → l.start ≤ l.along (n, m) → share eps orig g l (l.along (n, m)) = ⟨0, 0⟩ := by
      intro hj hs
      unfold share
      by_cases c : l.along (n, m) = l.stop
      · rw [if_pos c]; exact hz _ hj
      · have hb : ∀ k j, nextKnot (knot eps orig g l) k j ≤ j + k := by
          intro k
          induction k with
          | zero => intro j; exact Nat.le_refl _
          | succ k ih =>
            intro j
            unfold nextKnot
            split
            · omega
            · have := ih (j + 1); omega
        rw [if_neg c]
        simp only
        rw [hz _ (Nat.le_trans (lastKnot_le (knot eps orig g l) hs) hj), hz _ (Nat.le_trans (hb _ _) (by omega))]
        simp [add, scale]
    by_cases z : l.Zone lo up (n, m) ∧ valid (orig.node n m) = true
    · rw [if_pos z, carried_zero geo eps (Or.inl (hsh z.1.1.2 z.1.1.1)), hsame n m hn hm]
    · rw [if_neg z]
      by_cases o : l.On (n, m)
      · rw [if_pos o, hsh o.2.2 o.2.1, hsame n m hn hm]
        simp [add]
      · rw [if_neg o]
  rw [hg] at h1
  exact ⟨u, h1⟩

/-- C58, undo: with the line inside the block and no loose nodes, undoing gives the grid before the shift. What is
missing: a line outside the block (`shift_undo_leaves_line`) and loose nodes (C19). -/
theorem shift_undo_partial (geo : Geo K) {eps : K} (heps : 0 < eps) {orig g : Grid (Pt K)} (hg : WF g) (hn : NoLoose g) {l : Line}
    (ls : List Line) {lo up : Nat × Nat} (hf : Fits orig g l lo up)
    (hoff : ∀ n m, n < g.numN → m < g.numM → ¬ l.On (n, m) → g.node n m = orig.node n m)
    (hin : l.across lo ≤ l.const ∧ l.const ≤ l.across up) :
    ∃ g' u u', shift geo eps orig g (l :: ls) lo up = .ok (g', u) ∧ u.restore g' = .ok (u', g) := by
  obtain ⟨g', h1, h2⟩ := shift_general geo eps ls hf (knots_before heps hf.line hoff)
  obtain ⟨r1, r2, r3, r4⟩ := region_in hf.line hf.zone
  obtain ⟨u', hu⟩ := undo_block g g' hg hn _ h2 _ _ _ _ (by omega : (regionOf l lo up).1.1 ≤ (regionOf l lo up).2.1 + 1)
    (by omega : (regionOf l lo up).1.2 ≤ (regionOf l lo up).2.2 + 1) (by omega) (by omega) (fun n m _ _ ho => by
      unfold shiftedTo
      rw [if_neg (fun c => ho ((zone_iff l lo up n m).1 c.1)), if_neg]
      rintro ⟨⟨o1, o2⟩, -⟩
      exact ho ((zone_iff l lo up n m).1 ⟨o2, by omega⟩))
  exact ⟨g', _, u', h1, hu⟩

/-! ## Where it fails -/

/-- C58 fails for a line through a deleted node: the node is given the place (-999, -999) plus a share of the moves,
which counts as a valid node (`CurvilinearGridLineShift.cpp:90-92` does not look whether the node is valid). -/
theorem shift_revives_deleted_node (geo : Geo K) {eps : K} (heps : 0 < eps) {orig g : Grid (Pt K)} {l : Line} (ls : List Line) {lo up : Nat × Nat}
    (hf : Fits orig g l lo up) (hoff : ∀ n m, n < g.numN → m < g.numM → ¬ l.On (n, m) → g.node n m = orig.node n m)
    {n m : Nat} (hn : n < g.numN) (hm : m < g.numM) (ho : l.On (n, m)) (hdel : orig.node n m = ⟨-999, -999⟩)
    (hx : (share eps orig g l (l.along (n, m))).x ≠ 0) (hy : (share eps orig g l (l.along (n, m))).y ≠ 0) :
    ∃ g' u, shift geo eps orig g (l :: ls) lo up = .ok (g', u) ∧ valid (g'.node n m) = true := by
  obtain ⟨g', u, h1, h2⟩ := shift_exact geo heps ls hf hoff
  refine ⟨g', u, h1, ?_⟩
  have hinv : ¬ valid (orig.node n m) = true := by
    rw [hdel]
    show ¬ (decide ((-999 : K) ≠ -999) && decide ((-999 : K) ≠ -999)) = true
    simp
  rw [h2.visible n m hn hm, if_neg (fun z => hinv z.2), if_pos ho, hdel]
  show (decide (-999 + (share eps orig g l (l.along (n, m))).x ≠ -999) && decide (-999 + (share eps orig g l (l.along (n, m))).y ≠ -999)) = true
  simp [hx, hy]

/-- A grid with three rows of five nodes. -/
def threeRows : Grid (Pt ℝ) := ⟨3, 5, fun i j => ⟨j, i⟩, 0, 0, 0, 0⟩

/-- The same with the first node moved. -/
noncomputable def firstMoved : Grid (Pt ℝ) := ⟨3, 5, fun i j => if i = 0 ∧ j = 0 then ⟨1, 1⟩ else ⟨j, i⟩, 0, 0, 0, 0⟩

theorem coords_valid {x y : ℝ} (hx : 0 ≤ x) (hy : 0 ≤ y) : valid (⟨x, y⟩ : Pt ℝ) = true := by
  show (decide (x ≠ -999) && decide (y ≠ -999)) = true
  rw [decide_eq_true (by linarith), decide_eq_true (by linarith)]
  rfl

theorem firstMoved_fits : Fits threeRows firstMoved ⟨(0, 0), (2, 0)⟩ (0, 2) (2, 4) :=
  ⟨rfl, rfl, ⟨by decide, by decide, ⟨by show 0 < 3 - 0 - 0; decide, by show 0 < 5 - 0 - 0; decide⟩,
    ⟨by show 2 < 3 - 0 - 0; decide, by show 0 < 5 - 0 - 0; decide⟩⟩,
    ⟨by decide, by decide, ⟨by show 2 < 3 - 0 - 0; decide, by show 4 < 5 - 0 - 0; decide⟩⟩⟩

theorem firstMoved_off (n m : Nat) (h : ¬ (⟨(0, 0), (2, 0)⟩ : Line).On (n, m)) : firstMoved.node n m = threeRows.node n m := by
  show (if n = 0 ∧ m = 0 then _ else _) = _
  rw [if_neg]
  · rfl
  · rintro ⟨rfl, rfl⟩
    exact h (by decide)

theorem firstMoved_move (j : Nat) : moveAt threeRows firstMoved ⟨(0, 0), (2, 0)⟩ j = if j = 0 then ⟨1, 1⟩ else ⟨0, 0⟩ := by
  show sub (if j = 0 ∧ (0 : Nat) = 0 then (⟨1, 1⟩ : Pt ℝ) else ⟨((0 : Nat) : ℝ), (j : ℝ)⟩) ⟨((0 : Nat) : ℝ), (j : ℝ)⟩ = _
  by_cases c : j = 0
  · rw [if_pos ⟨c, rfl⟩, if_pos c, c]; simp [sub]
  · rw [if_neg (fun w => c w.1), if_neg c]; simp [sub]

theorem firstMoved_share : share (1 / 100000) threeRows firstMoved ⟨(0, 0), (2, 0)⟩ 1 = ⟨1 / 2, 1 / 2⟩ := by
  have k1 : knot (1 / 100000) threeRows firstMoved ⟨(0, 0), (2, 0)⟩ 1 = false :=
    knot_of_zero (by norm_num) (by rw [firstMoved_move, if_neg (by decide)])
  have k2 : knot (1 / 100000) threeRows firstMoved ⟨(0, 0), (2, 0)⟩ 2 = false :=
    knot_of_zero (by norm_num) (by rw [firstMoved_move, if_neg (by decide)])
  have h1 : lastKnot (knot (1 / 100000) threeRows firstMoved ⟨(0, 0), (2, 0)⟩) 0 1 = 0 := by
    show (if 0 + 1 ≤ 0 then 0 else if knot (1 / 100000) threeRows firstMoved ⟨(0, 0), (2, 0)⟩ 1 then 0 + 1 else 0) = 0
    rw [k1]; rfl
  have h2 : nextKnot (knot (1 / 100000) threeRows firstMoved ⟨(0, 0), (2, 0)⟩) 1 1 = 2 := by
    show (if knot (1 / 100000) threeRows firstMoved ⟨(0, 0), (2, 0)⟩ 2 then 1 + 1 else 1 + 1) = 2
    rw [k2]; rfl
  have hs : (⟨(0, 0), (2, 0)⟩ : Line).start = 0 := rfl
  have ht : (⟨(0, 0), (2, 0)⟩ : Line).stop = 2 := rfl
  unfold share
  simp only [hs, ht, show (2 : Nat) - 1 = 1 from rfl]
  rw [if_neg (by decide), h1, h2, firstMoved_move, firstMoved_move, if_pos rfl, if_neg (by decide)]
  simp only [add, scale]
  norm_num

/-- C58 fails for undo when the line lies outside the block: the nodes of the line between the moved ones have been
moved too, and undo, which restores the block only, leaves them there. -/
theorem shift_undo_leaves_line (geo : Geo ℝ) :
    ∃ g' u u' g'', shift geo (1 / 100000) threeRows firstMoved [⟨(0, 0), (2, 0)⟩] (0, 2) (2, 4) = .ok (g', u) ∧
      u.restore g' = .ok (u', g'') ∧ firstMoved.node 1 0 = ⟨0, 1⟩ ∧ g''.node 1 0 = ⟨1 / 2, 3 / 2⟩ := by
  have heps : (0 : ℝ) < 1 / 100000 := by norm_num
  obtain ⟨g', h1, h2⟩ := shift_general geo (1 / 100000) [] firstMoved_fits
    (knots_before heps firstMoved_fits.line (fun n m _ _ h => firstMoved_off n m h))
  replace h2 : Edited firstMoved g' (shiftedTo geo (1 / 100000) threeRows firstMoved ⟨(0, 0), (2, 0)⟩ (0, 2) (2, 4) 3) := h2
  have hnew : ∀ n m, ¬ (⟨(0, 0), (2, 0)⟩ : Line).Zone (0, 2) (2, 4) (n, m) →
      shiftedTo geo (1 / 100000) threeRows firstMoved ⟨(0, 0), (2, 0)⟩ (0, 2) (2, 4) 3 n m =
      if (⟨(0, 0), (2, 0)⟩ : Line).On (n, m) ∧ n < 3 then add (threeRows.node n m) (share (1 / 100000) threeRows firstMoved ⟨(0, 0), (2, 0)⟩ n)
      else firstMoved.node n m := by
    intro n m hz
    unfold shiftedTo
    rw [if_neg (fun w => hz w.1)]
    rfl
  have hval : ∀ n m, n < 3 → m < 5 → ¬ (⟨(0, 0), (2, 0)⟩ : Line).Zone (0, 2) (2, 4) (n, m) →
      valid (shiftedTo geo (1 / 100000) threeRows firstMoved ⟨(0, 0), (2, 0)⟩ (0, 2) (2, 4) 3 n m) = true := by
    intro n m hn hm hz
    rw [hnew n m hz]
    by_cases o : (⟨(0, 0), (2, 0)⟩ : Line).On (n, m) ∧ n < 3
    · rw [if_pos o]
      have hs : ∃ a : ℝ, 0 ≤ a ∧ share (1 / 100000) threeRows firstMoved ⟨(0, 0), (2, 0)⟩ n = ⟨a, a⟩ := by
        rcases (by omega : n = 0 ∨ n = 1 ∨ n = 2) with rfl | rfl | rfl
        · rw [share_knot _ (Or.inl (by decide)), firstMoved_move, if_pos rfl]; exact ⟨1, by norm_num, rfl⟩
        · rw [firstMoved_share]; exact ⟨1 / 2, by norm_num, rfl⟩
        · rw [share_knot _ (Or.inr (Or.inl (by decide))), firstMoved_move, if_neg (by decide)]; exact ⟨0, le_refl _, rfl⟩
      obtain ⟨a, ha, e⟩ := hs
      rw [e]
      exact coords_valid (add_nonneg (Nat.cast_nonneg _) ha) (add_nonneg (Nat.cast_nonneg _) ha)
    · rw [if_neg o]
      show valid (if n = 0 ∧ m = 0 then (⟨1, 1⟩ : Pt ℝ) else ⟨m, n⟩) = true
      split
      · exact coords_valid zero_le_one zero_le_one
      · exact coords_valid (Nat.cast_nonneg _) (Nat.cast_nonneg _)
  obtain ⟨b', g'', h3, h4⟩ := restore_block firstMoved g' ⟨by show 0 + 0 + 2 ≤ 3; omega, by show 0 + 0 + 2 ≤ 5; omega⟩ _ h2 0 2 3 5 (by omega) (by omega)
    (by show 3 ≤ 3 - 0 - 0; omega) (by show 5 ≤ 5 - 0 - 0; omega) (fun n m hn hm => by
      by_cases c : (0 ≤ n ∧ n < 3) ∧ 2 ≤ m ∧ m < 5
      · rw [if_pos c]
        show valid (if n = 0 ∧ m = 0 then (⟨1, 1⟩ : Pt ℝ) else ⟨m, n⟩) = true
        split
        · exact coords_valid zero_le_one zero_le_one
        · exact coords_valid (Nat.cast_nonneg _) (Nat.cast_nonneg _)
      · rw [if_neg c]
        exact hval n m hn hm (fun w => c ((zone_iff _ _ _ n m).1 w)))
  refine ⟨g', _, b', g'', h1, h3, ?_, ?_⟩
  · show (if (1 : Nat) = 0 ∧ (0 : Nat) = 0 then (⟨1, 1⟩ : Pt ℝ) else ⟨((0 : Nat) : ℝ), ((1 : Nat) : ℝ)⟩) = _
    rw [if_neg (by decide)]
    simp
  · rw [h4.visible 1 0 (by show 1 < 3 - 0 - 0; omega) (by show 0 < 5 - 0 - 0; omega), if_neg (by omega), hnew 1 0 (by decide),
      if_pos (by decide), firstMoved_share]
    simp only [add, threeRows, Grid.node]
    norm_num

omit [IsStrictOrderedRing K] in
/-- Only the first line given to a session is shifted; further lines are accepted and ignored. -/
theorem shift_first_line_only (geo : Geo K) (eps : K) (orig g : Grid (Pt K)) (l : Line) (ls : List Line) (lo up : Nat × Nat) :
    shift geo eps orig g (l :: ls) lo up = shift geo eps orig g [l] lo up := rfl

omit [Field K] [LinearOrder K] [IsStrictOrderedRing K] in
/-- The crossing test is right for two perpendicular lines. -/
theorem crosses_perpendicular (a b : Line) (h : a.alongN = !b.alongN) : crosses a b = true ↔ ∃ v, a.On v ∧ b.On v := by
  unfold crosses
  simp only [List.any_eq_true, List.mem_range'_1, Bool.and_eq_true, decide_eq_true_eq]
  constructor
  · rintro ⟨i, hi, j, hj, rfl, rfl⟩
    unfold Line.On Line.across Line.along
    cases hb : b.alongN
    · rw [hb] at h
      simp only [h, Bool.not_false, if_true, Bool.false_eq_true, if_false]
      exact ⟨(b.const, a.const), ⟨rfl, by omega⟩, rfl, by omega⟩
    · rw [hb] at h
      simp only [h, Bool.not_true, if_true, Bool.false_eq_true, if_false]
      exact ⟨(a.const, b.const), ⟨rfl, by omega⟩, rfl, by omega⟩
  · rintro ⟨v, ⟨h1, h2⟩, h3, h4⟩
    unfold Line.across Line.along at *
    cases hb : b.alongN
    · rw [hb] at h
      simp only [h, hb, Bool.not_false, if_true, Bool.false_eq_true, if_false] at *
      exact ⟨v.1, by omega, v.2, by omega, h1, h3⟩
    · rw [hb] at h
      simp only [h, hb, Bool.not_true, if_true, Bool.false_eq_true, if_false] at *
      exact ⟨v.2, by omega, v.1, by omega, h1, h3⟩

/-- The crossing test is wrong for parallel lines: two that have no node in common count as crossing and the second is
refused (`CurvilinearGridAlgorithm.cpp:76-88`). -/
theorem parallel_line_refused :
    ∃ a b : Line, (∀ v, ¬ (a.On v ∧ b.On v)) ∧ setLine (fullGrid 5 5) [a] b.first b.last = .throw ∧
      setLine (fullGrid 5 5) [] b.first b.last = .ok [b] := by
  refine ⟨⟨(1, 0), (1, 4)⟩, ⟨(3, 0), (3, 4)⟩, ?_, by decide, by decide⟩
  rintro v ⟨⟨h1, -⟩, h2, -⟩
  have e1 : v.1 = 1 := h1
  have e2 : v.1 = 3 := h2
  omega

/-! ## Sessions -/

omit [IsStrictOrderedRing K] in
/-- C58 fails for the order of the calls: without `initialize`, setting the line or the block or moving a node follows a
null pointer; only `line_shift` itself reports an error. -/
theorem session_needs_initialize (geo : Geo K) (eps : K) (w : World K) (h : w.session = none) (a b : Nat × Nat) (p : Pt K) :
    sessionSetLine w a b = .ub ∧ sessionSetBlock w a b = .ub ∧ sessionMoveNode w a p = .ub ∧ sessionShift geo eps w = .throw := by
  unfold sessionSetLine sessionSetBlock sessionMoveNode sessionShift World.follow
  rw [h]
  exact ⟨rfl, rfl, rfl, rfl⟩

omit [IsStrictOrderedRing K] in
/-- C58, moving one node of the line: with a line and a block set, a node of the line takes the given position and no other node moves; a
node off the line is refused. -/
theorem session_move_node (w : World K) (s : Session K) (g : Grid (Pt K)) (l : Line) (ls : List Line) (hs : w.session = some s)
    (hg : w.grids[s.grid]? = some g) (hl : s.lines = l :: ls) (hb : s.lo.1 ≠ missing ∧ s.lo.2 ≠ missing) (v : Nat × Nat)
    (hv : v.1 < g.numN ∧ v.2 < g.numM) (hf : g.numN ≤ missing ∧ g.numM ≤ missing) (p : Pt K) :
    (l.On v → ∃ w' g', sessionMoveNode w v p = .ok w' ∧ w'.grids[s.grid]? = some g' ∧
      Edited g g' (fun n m => if n = v.1 ∧ m = v.2 then p else g.node n m)) ∧
    (¬ l.On v → sessionMoveNode w v p = .throw) := by
  have hlen : s.grid < w.grids.length := (List.getElem?_eq_some_iff.1 hg).1
  have step : sessionMoveNode w v p = (shiftMoveNode g s.lines s.lo s.up v p >>= fun r => .ok { w with grids := w.grids.set s.grid r.1 }) := by
    unfold sessionMoveNode World.follow World.at
    rw [hs, Res.ok_bind, hg, Res.ok_bind]
  have hnb : ¬ ((s.lo.1 = missing ∨ s.lo.2 = missing) ∧ (s.up.1 = missing ∨ s.up.2 = missing)) := by
    rintro ⟨h | h, _⟩
    · exact hb.1 h
    · exact hb.2 h
  rw [step, hl]
  unfold shiftMoveNode
  simp only []
  rw [if_neg hnb]
  constructor
  · intro ho
    obtain ⟨g', h1, h2⟩ := (Edited.refl g).set hv.1 hv.2 p
    rw [if_neg (by rw [(has_iff l v).2 ho]; decide)]
    unfold moveNode
    rw [if_neg (by omega), getNode_ok hv.1 hv.2, Res.ok_bind, h1, Res.ok_bind, Res.ok_bind]
    exact ⟨_, g', rfl, by simp [hlen], h2⟩
  · intro ho
    rw [if_pos]
    · rfl
    · rcases Bool.eq_false_or_eq_true (l.has v) with h | h
      · exact absurd ((has_iff l v).1 h) ho
      · rw [h]; rfl

/-- One call of the session. -/
inductive Call (K : Type)
  | line (a b : Nat × Nat)
  | block (a b : Nat × Nat)
  | move (v : Nat × Nat) (p : Pt K)
  | shift

/-- What it does. -/
def Call.run (geo : Geo K) (eps : K) : Call K → World K → Res (World K)
  | .line a b, w => sessionSetLine w a b
  | .block a b, w => sessionSetBlock w a b
  | .move v p, w => sessionMoveNode w v p
  | .shift, w => sessionShift geo eps w

/-- Several calls; one that throws changes nothing. -/
def runCalls (geo : Geo K) (eps : K) : List (Call K) → World K → Res (World K)
  | [], w => .ok w
  | c :: cs, w =>
    match c.run geo eps w with
    | .ok w' => runCalls geo eps cs w'
    | .throw => runCalls geo eps cs w
    | .ub => .ub

omit [IsStrictOrderedRing K] in
theorem call_keeps (geo : Geo K) (eps : K) (c : Call K) (w w' : World K) (s : Session K) (hs : w.session = some s)
    (h : c.run geo eps w = .ok w') :
    w'.current = w.current ∧ (∃ s', w'.session = some s' ∧ s'.grid = s.grid) ∧ ∀ i, i ≠ s.grid → w'.grids[i]? = w.grids[i]? := by
  have hfol : w.follow = .ok s := by unfold World.follow; rw [hs]
  cases c with
  | line a b =>
    simp only [Call.run, sessionSetLine, hfol, Res.ok_bind] at h
    obtain ⟨g, -, h⟩ := Res.bind_eq_ok.1 h
    obtain ⟨ls, -, h⟩ := Res.bind_eq_ok.1 h
    obtain rfl := Res.ok.inj h
    exact ⟨rfl, ⟨_, rfl, rfl⟩, fun _ _ => rfl⟩
  | block a b =>
    simp only [Call.run, sessionSetBlock, hfol, Res.ok_bind] at h
    obtain ⟨g, -, h⟩ := Res.bind_eq_ok.1 h
    obtain ⟨ls, -, h⟩ := Res.bind_eq_ok.1 h
    obtain rfl := Res.ok.inj h
    exact ⟨rfl, ⟨_, rfl, rfl⟩, fun _ _ => rfl⟩
  | move v p =>
    simp only [Call.run, sessionMoveNode, hfol, Res.ok_bind] at h
    obtain ⟨g, -, h⟩ := Res.bind_eq_ok.1 h
    obtain ⟨r, -, h⟩ := Res.bind_eq_ok.1 h
    obtain rfl := Res.ok.inj h
    exact ⟨rfl, ⟨s, hs, rfl⟩, fun i hi => List.getElem?_set_ne (Ne.symm hi)⟩
  | shift =>
    simp only [Call.run, sessionShift, hs] at h
    obtain ⟨g, -, h⟩ := Res.bind_eq_ok.1 h
    obtain ⟨r, -, h⟩ := Res.bind_eq_ok.1 h
    obtain rfl := Res.ok.inj h
    exact ⟨rfl, ⟨s, rfl, rfl⟩, fun i hi => List.getElem?_set_ne (Ne.symm hi)⟩

omit [IsStrictOrderedRing K] in
/-- C58 fails after setting a new grid: whatever calls of the session follow, the current grid never changes; the moves
and the shift go to the grid that was replaced. -/
theorem session_edits_replaced_grid (geo : Geo K) (eps : K) (g : Grid (Pt K)) : ∀ (cs : List (Call K)) (w w₁ w₂ w₃ : World K),
    w.current < w.grids.length → beginShift w = .ok w₁ → setGrid w₁ g = .ok w₂ → runCalls geo eps cs w₂ = .ok w₃ →
    w₃.grids[w₃.current]? = some g := by
  intro cs w w₁ w₂ w₃ hc h1 h2 h3
  unfold beginShift at h1
  obtain ⟨g0, -, h1⟩ := Res.bind_eq_ok.1 h1
  split at h1
  · cases h1
  · obtain rfl := Res.ok.inj h1
    obtain rfl := Res.ok.inj h2
    have key : ∀ (cs : List (Call K)) (v v' : World K) (s : Session K), v.session = some s → s.grid ≠ v.current →
        v.grids[v.current]? = some g → runCalls geo eps cs v = .ok v' → v'.grids[v'.current]? = some g := by
      intro cs
      induction cs with
      | nil =>
        intro v v' s _ _ h h'
        obtain rfl := Res.ok.inj h'
        exact h
      | cons c cs ih =>
        intro v v' s hs hne h h'
        unfold runCalls at h'
        split at h'
        · rename_i w' hw'
          obtain ⟨k1, ⟨s', k2, k3⟩, k4⟩ := call_keeps geo eps c v w' s hs hw'
          refine ih w' v' s' k2 (by rw [k1, k3]; exact hne) ?_ h'
          rw [k1, k4 _ (Ne.symm hne), h]
        · exact ih v v' s hs hne h h'
        · cases h'
    refine key cs _ w₃ _ rfl ?_ ?_ h3
    · show w.current ≠ w.grids.length
      omega
    · show (w.grids ++ [g])[w.grids.length]? = some g
      simp

/-! The hypotheses can be met. -/

example : ∀ n m, n < firstMoved.numN → m < firstMoved.numM → ¬ (⟨(0, 0), (2, 0)⟩ : Line).On (n, m) → firstMoved.node n m = threeRows.node n m :=
  fun n m _ _ h => firstMoved_off n m h

example : Fits threeRows firstMoved ⟨(0, 0), (2, 0)⟩ (0, 2) (2, 4) := firstMoved_fits

example : (1 / 100000 : ℝ) ≤ |(firstMoved.node 0 0).x - (threeRows.node 0 0).x| := by
  show (1 / 100000 : ℝ) ≤ |(if (0 : Nat) = 0 ∧ (0 : Nat) = 0 then (⟨1, 1⟩ : Pt ℝ) else ⟨((0 : Nat) : ℝ), ((0 : Nat) : ℝ)⟩).x - ((0 : Nat) : ℝ)|
  rw [if_pos ⟨rfl, rfl⟩]
  norm_num

example : (⟨(0, 0), (2, 0)⟩ : Line).across (0, 0) ≤ (⟨(0, 0), (2, 0)⟩ : Line).const ∧
    (⟨(0, 0), (2, 0)⟩ : Line).const ≤ (⟨(0, 0), (2, 0)⟩ : Line).across (2, 4) := by decide

example : (⟨(0, 0), (2, 0)⟩ : Line).alongN = !(⟨(1, 0), (1, 4)⟩ : Line).alongN := by decide

/-- A line whose middle node was deleted, with the first node moved: the share of the middle node is not zero. -/
example : ∃ orig g : Grid (Pt ℚ), orig.node 1 0 = ⟨-999, -999⟩ ∧ (∀ n m, n < 3 → m < 3 → ¬ (⟨(0, 0), (2, 0)⟩ : Line).On (n, m) →
    g.node n m = orig.node n m) ∧ share (1 / 100000) orig g ⟨(0, 0), (2, 0)⟩ 1 = ⟨1 / 2, 1 / 2⟩ := by
  refine ⟨⟨3, 3, fun i j => if i = 1 ∧ j = 0 then ⟨-999, -999⟩ else ⟨j, i⟩, 0, 0, 0, 0⟩,
    ⟨3, 3, fun i j => if i = 1 ∧ j = 0 then ⟨-999, -999⟩ else if i = 0 ∧ j = 0 then ⟨1, 1⟩ else ⟨j, i⟩, 0, 0, 0, 0⟩, by decide, ?_, by decide +kernel⟩
  intro n m _ _ h
  show (if n = 1 ∧ m = 0 then _ else if n = 0 ∧ m = 0 then _ else _) = (if n = 1 ∧ m = 0 then _ else _)
  split
  · rfl
  · rw [if_neg]
    rintro ⟨rfl, rfl⟩
    exact h (by decide)

example : ∃ (w : World ℝ) (s : Session ℝ) (l : Line), w.session = some s ∧ w.grids[s.grid]? = some threeRows ∧ s.lines = [l] ∧
    s.lo.1 ≠ missing ∧ s.lo.2 ≠ missing ∧ l.On (1, 0) ∧ ¬ l.On (1, 1) :=
  ⟨⟨[threeRows], 0, some ⟨0, threeRows, [⟨(0, 0), (2, 0)⟩], (0, 2), (2, 4)⟩⟩, _, ⟨(0, 0), (2, 0)⟩, rfl, rfl, rfl, by decide, by decide, by decide, by decide⟩

example : ∃ w w₁ : World ℝ, w.current < w.grids.length ∧ beginShift w = .ok w₁ := ⟨⟨[threeRows], 0, none⟩, _, by decide, rfl⟩

end Verif.CurviLine
