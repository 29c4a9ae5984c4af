import Verif.Snap.Props
import Verif.CurviLine.AttractProps
/-!
# C78: where snapping fails, and that the hypotheses can be met
-/
namespace Verif.Snap
open Verif.Curvi Verif.CurviLine

theorem bell_half : realGeo.bell 1 2 = 1 / 2 := by
  show (1 + Real.cos (Real.pi * ((1 : ℕ) : ℝ) / ((2 : ℕ) : ℝ))) / 2 = 1 / 2
  rw [Nat.cast_one, Nat.cast_ofNat, mul_one, Real.cos_pi_div_two]
  norm_num

/-- Three rows of three nodes one apart, the first node at `(c, c)`. -/
def square (c : ℝ) : Grid (Pt ℝ) := ⟨3, 3, fun i j => ⟨c + j, c + i⟩, 0, 0, 0, 0⟩

/-- A straight boundary at height `y`. -/
noncomputable def below (y : ℝ) : Means ℝ := realMeans (fun p => ⟨p.x, y⟩) 1

theorem below_good (y : ℝ) : (below y).Good := realMeans_good _ _

theorem square_valid (c : ℝ) (hc : 0 ≤ c) (i j : Nat) : valid (⟨c + j, c + i⟩ : Pt ℝ) = true := by
  have h1 : (0 : ℝ) ≤ i := Nat.cast_nonneg _
  have h2 : (0 : ℝ) ≤ j := Nat.cast_nonneg _
  show (decide (c + (j : ℝ) ≠ -999) && decide (c + (i : ℝ) ≠ -999)) = true
  rw [decide_eq_true (by linarith), decide_eq_true (by linarith)]
  rfl

theorem line_row : lineOf (0, 0) (0, 2) = ⟨(0, 0), (0, 2)⟩ := rfl

theorem target_line (c : ℝ) (hc : 0 ≤ c) : target (below (c - 1)) (square c) (lineOf (0, 0) (0, 2)) (reachOf (0, 0) (0, 2) [(2, 1)]) (0, 1) =
    ⟨c + 1, c - 1⟩ := by
  have hf : foothold (lineOf (0, 0) (0, 2)) (0, 1) = (0, 1) := rfl
  unfold target
  simp only
  rw [hf, if_pos ⟨⟨by decide, by decide⟩, square_valid c hc 0 1⟩, if_pos rfl]
  show (⟨c + ((1 : ℕ) : ℝ), c - 1⟩ : Pt ℝ) = _
  rw [Nat.cast_one]

theorem target_next (c : ℝ) (hc : 0 ≤ c) :
    (¬ Near (⟨c + 1, c⟩ : Pt ℝ) ⟨c + 1, c - 1⟩ → target (below (c - 1)) (square c) (lineOf (0, 0) (0, 2)) (reachOf (0, 0) (0, 2) [(2, 1)]) (1, 1) =
      ⟨c + 1, c + 1 / 2⟩) ∧
    (Near (⟨c + 1, c⟩ : Pt ℝ) ⟨c + 1, c - 1⟩ → target (below (c - 1)) (square c) (lineOf (0, 0) (0, 2)) (reachOf (0, 0) (0, 2) [(2, 1)]) (1, 1) =
      ⟨c + 1, c + 1⟩) := by
  have hf : foothold (lineOf (0, 0) (0, 2)) (1, 1) = (0, 1) := rfl
  have hsh : (reachOf (0, 0) (0, 2) [(2, 1)]).share (below (c - 1)) (square c) (lineOf (0, 0) (0, 2)) (1, 1) = 1 / 2 := bell_half
  have hn : (square c).node 0 1 = ⟨c + 1, c⟩ := by
    show (⟨c + ((1 : ℕ) : ℝ), c + ((0 : ℕ) : ℝ)⟩ : Pt ℝ) = _
    rw [Nat.cast_one, Nat.cast_zero, add_zero]
  have hx : (square c).node 1 1 = ⟨c + 1, c + 1⟩ := by
    show (⟨c + ((1 : ℕ) : ℝ), c + ((1 : ℕ) : ℝ)⟩ : Pt ℝ) = _
    rw [Nat.cast_one]
  have hv : valid ((square c).node 0 1) = true := square_valid c hc 0 1
  have hw : valid ((square c).node 1 1) = true := square_valid c hc 1 1
  rw [hn] at hv
  rw [hx] at hw
  have hq : (below (c - 1)).nearest ⟨c + 1, c⟩ = ⟨c + 1, c - 1⟩ := rfl
  have hwi : (reachOf (0, 0) (0, 2) [(2, 1)]).Within (lineOf (0, 0) (0, 2)) (1, 1) :=
    ⟨⟨by decide, by decide⟩, by decide, by decide⟩
  unfold target
  simp only
  rw [hf]
  simp only
  rw [hn, hx, hq, if_pos ⟨⟨by decide, by decide⟩, hv⟩, if_neg (by decide), hsh]
  constructor
  · intro h
    rw [if_pos ⟨hwi, hw, h, by norm_num⟩]
    simp only [add, scale, sub]
    congr 1
    · ring
    · ring
  · intro h
    rw [if_neg (fun d => d.2.2.1 h)]

/-- C78 fails far from the origin: whether the neighbouring lines follow depends on where the grid lies. The same grid,
the same boundary one unit below it and the same control nodes: at the origin the next row follows by half the move; with
the grid at (500000, 500000), usual coordinates in metres, only the line itself moves, because a move smaller than 1e-5 of
the coordinates counts as none (`CurvilinearGridSnapping.cpp:165`, `NumericFunctions.hpp:44-56`). -/
theorem neighbours_follow_only_near_origin (see : Pt ℝ → Res (Nat × Nat)) (points points' : List (Pt ℝ))
    (h : Seen see (square 0) points [(0, 0), (0, 2), (2, 1)]) (see' : Pt ℝ → Res (Nat × Nat))
    (h' : Seen see' (square 500000) points' [(0, 0), (0, 2), (2, 1)]) :
    ∃ g u g' u', snap (below (0 - 1)) see (square 0) points = .ok (g, u) ∧
      snap (below (500000 - 1)) see' (square 500000) points' = .ok (g', u') ∧
      (g.node 0 1 = ⟨0 + 1, 0 - 1⟩ ∧ g'.node 0 1 = ⟨500000 + 1, 500000 - 1⟩) ∧
      g.node 1 1 = ⟨0 + 1, 0 + 1 / 2⟩ ∧ g'.node 1 1 = ⟨500000 + 1, 500000 + 1⟩ := by
  obtain ⟨g, u, h1, h2⟩ := snap_exact_partial (below_good (0 - 1)) see (square 0) (by decide : 3 ≤ missing) (by decide : 3 ≤ missing) ⟨rfl, rfl, rfl, rfl⟩
    points (0, 0) (0, 2) [(2, 1)] (by decide) h (by decide) (Or.inl rfl)
  obtain ⟨g', u', h1', h2'⟩ := snap_exact_partial (below_good (500000 - 1)) see' (square 500000) (by decide : 3 ≤ missing) (by decide : 3 ≤ missing) ⟨rfl, rfl, rfl, rfl⟩
    points' (0, 0) (0, 2) [(2, 1)] (by decide) h' (by decide) (Or.inl rfl)
  refine ⟨g, u, g', u', h1, h1', ⟨?_, ?_⟩, ?_, ?_⟩
  · rw [h2.visible 0 1 (by show 0 < 3; decide) (by show 1 < 3; decide)]
    exact target_line 0 le_rfl
  · rw [h2'.visible 0 1 (by show 0 < 3; decide) (by show 1 < 3; decide)]
    exact target_line 500000 (by norm_num)
  · rw [h2.visible 1 1 (by show 1 < 3; decide) (by show 1 < 3; decide)]
    refine (target_next 0 le_rfl).1 ?_
    rintro ⟨-, c | c⟩
    · norm_num at c
    · norm_num at c
  · rw [h2'.visible 1 1 (by show 1 < 3; decide) (by show 1 < 3; decide)]
    refine (target_next 500000 (by norm_num)).2 ⟨Or.inl rfl, Or.inr ?_⟩
    show |(500000 : ℝ) - (500000 - 1)| < 1 / 100000 * min |500000| |500000 - 1|
    rw [abs_of_pos (by norm_num), abs_of_pos (by norm_num), abs_of_pos (by norm_num), min_eq_right (by norm_num)]
    norm_num

/-- C78 fails for control points that are not on one grid line: they are accepted, all nodes between them are taken as
nodes of the line, and the rounds overwrite each other. The node in the middle does not end on the boundary at height -1
but half way along the move of the last corner, at (1, -1/2). -/
theorem diagonal_line_misplaced (see : Pt ℝ → Res (Nat × Nat)) (points : List (Pt ℝ)) (h : Seen see (square 0) points [(0, 0), (2, 2), (2, 2)]) :
    ∃ g u, snap (below (-1)) see (square 0) points = .ok (g, u) ∧ g.node 1 1 = ⟨1, -1 / 2⟩ ∧
      (below (-1)).nearest ((square 0).node 1 1) = ⟨1, -1⟩ := by
  obtain ⟨g, old, z, hz, h1, h2⟩ := snap_any (g := square 0) (below_good (-1)) (by decide : 3 ≤ missing) (by decide : 3 ≤ missing) (by decide) h
  refine ⟨g, _, h1, ?_, ?_⟩
  · rw [h2.visible 1 1 (by show 1 < 3; decide) (by show 1 < 3; decide)]
    have hn : ∀ i j : Nat, (copyGrid (square 0)).node i j = ⟨(j : ℝ), (i : ℝ)⟩ := by
      intro i j
      show (⟨0 + (((j + 0 : Nat)) : ℝ), 0 + (((i + 0 : Nat)) : ℝ)⟩ : Pt ℝ) = _
      rw [zero_add, zero_add, Nat.add_zero, Nat.add_zero]
    have hzo : z = ⟨(0, 0), (2, 2), (0, 0), (2, 2), (1, 1), true⟩ := by
      obtain ⟨e1, e2, e3, e4, e7, e8⟩ := hz
      have e5 := e7 (by decide)
      have e6 := e8 (by decide)
      clear e7 e8 h2
      cases z
      simp only at e1 e2 e3 e4 e5 e6
      subst e1 e2 e3 e4 e5 e6
      rfl
    subst hzo
    have hv : ∀ i j : Nat, valid (⟨(j : ℝ), (i : ℝ)⟩ : Pt ℝ) = true := plain_valid
    have hnot : ¬ Near (⟨((2 : ℕ) : ℝ), ((2 : ℕ) : ℝ)⟩ : Pt ℝ) ⟨((2 : ℕ) : ℝ), -1⟩ := by
      rintro ⟨-, c | c⟩
      · norm_num at c
      · norm_num at c
    have hshare : shareOf (below (-1)) (copyGrid (square 0)) ⟨(0, 0), (2, 2), (0, 0), (2, 2), (1, 1), true⟩ (2, 2) ⟨((2 : ℕ) : ℝ), -1⟩ (1, 1) = 1 / 2 := by
      show Real.sqrt (realGeo.bell 1 2 * realGeo.bell 1 2) = 1 / 2
      rw [bell_half, Real.sqrt_mul_self (by norm_num)]
    show snapped (below (-1)) (copyGrid (square 0)) (square 0) _ (2, 2) (1, 1) (old 1 1) = _
    unfold snapped
    simp only
    rw [hn 2 2, if_pos (hv 2 2), if_neg (by decide)]
    rw [show (below (-1)).nearest ⟨((2 : ℕ) : ℝ), ((2 : ℕ) : ℝ)⟩ = ⟨((2 : ℕ) : ℝ), -1⟩ from rfl]
    rw [if_pos ⟨⟨⟨by decide, by decide⟩, by decide, by decide⟩, hnot⟩]
    unfold carried
    rw [hshare, hn 1 1, hn 2 2, if_pos ⟨hv 1 1, by norm_num⟩]
    simp only [add, scale, sub]
    norm_num
  · show (⟨0 + ((1 : ℕ) : ℝ), -1⟩ : Pt ℝ) = _
    norm_num

/-- The nodes of the first stored row are invalid, and the line lies in the first visible row: nothing is snapped. -/
theorem first_row_not_snapped {K : Type} [Field K] [LinearOrder K] (o : Means K) (see : Pt K → Res (Nat × Nat))
    (g : Grid (Pt K)) (hN : g.numN ≤ missing) (hM : g.numM ≤ missing) (h0 : ∀ j, valid (g.cell 0 j) = false) (points : List (Pt K)) (i j : Nat)
    (rest : List (Nat × Nat)) (hr : rest.length ≤ 2) (h : Seen see g points ((0, i) :: (0, j) :: rest)) :
    ∃ u, snap o see g points = .ok (g, u) := by
  obtain ⟨z, h1, h2⟩ := construct_ok hN hM hr h
  refine ⟨.block ⟨0, 0, g.numN, g.numM, savedNodes g 0 0 g.numN g.numM⟩, ?_⟩
  · unfold snap
    rw [h1, Res.ok_bind]
    apply compute_of_loop
    have hi : In g (0, i) := h.inside _ (by simp)
    have hj : In g (0, j) := h.inside _ (by simp)
    rw [h2.first, h2.last]
    refine forRange_eq (fun _ => g) (by simp only; omega) (fun m h3 h4 => ?_)
    refine forRange_eq (fun _ => g) (by simp) (fun n h5 h6 => ?_)
    have hn : n = 0 := by simp only [max_self] at h6; omega
    subst hn
    have hm : m < g.numM := by
      unfold In at hi hj
      simp only at h4 hi hj
      omega
    have hc := copy_le g
    have e : getNode (copyGrid g) 0 m = .ok (g.cell 0 m) := by
      have e := getNode_ok (g := copyGrid g) (n := 0) (m := m) (by have := hi.1; omega) (by omega)
      rw [e]
      rfl
    unfold snapNode
    rw [e, Res.ok_bind, h0 m]
    rfl

/-- C78 fails on a grid with a hidden line, as undoing the addition of a row leaves it: two grids with the same nodes; in
the one without hidden rows the line is snapped, in the other nothing happens. The copy from which the nodes are taken
loses the offset (`CurvilinearGrid.cpp:42-51`). -/
theorem hidden_row_not_snapped (see : Pt ℝ → Res (Nat × Nat)) (points : List (Pt ℝ)) (h : Seen see plainGrid points [(0, 0), (0, 2)])
    (h' : Seen see hiddenGrid points [(0, 0), (0, 2)]) :
    (plainGrid.numN = hiddenGrid.numN ∧ plainGrid.numM = hiddenGrid.numM ∧
      ∀ n m, n < plainGrid.numN → m < plainGrid.numM → plainGrid.node n m = hiddenGrid.node n m) ∧
    ∃ g u u', snap (below (-1)) see plainGrid points = .ok (g, u) ∧ snap (below (-1)) see hiddenGrid points = .ok (hiddenGrid, u') ∧
      g.node 0 1 = ⟨1, -1⟩ ∧ hiddenGrid.node 0 1 = ⟨1, 0⟩ := by
  refine ⟨⟨rfl, rfl, fun n m _ _ => rfl⟩, ?_⟩
  obtain ⟨g, u, h1, h2⟩ := snap_line_partial (below_good (-1)) see plainGrid (by decide : 3 ≤ missing) (by decide : 5 ≤ missing) ⟨rfl, rfl, rfl, rfl⟩
    points (0, 0) (0, 2) [] (by decide) h (by decide) (Or.inl rfl)
  obtain ⟨u', h3⟩ := first_row_not_snapped (below (-1)) see hiddenGrid (by decide : 4 - 1 - 0 ≤ missing) (by decide : 5 ≤ missing)
    (fun j => PointLike.valid_inv) points 0 2 [] (by decide) h'
  refine ⟨g, u, u', h1, h3, ?_, ?_⟩
  · rw [h2 0 1 (by show 0 < 3; decide) (by show 1 < 5; decide) ⟨by decide, by decide, by decide⟩ (plain_valid 0 1)]
    show (⟨((1 : ℕ) : ℝ), -1⟩ : Pt ℝ) = _
    rw [Nat.cast_one]
  · show (⟨((1 : ℕ) : ℝ), ((0 : ℕ) : ℝ)⟩ : Pt ℝ) = _
    rw [Nat.cast_one, Nat.cast_zero]

/-! The hypotheses can be met. -/

/-- A search that finds the given nodes for the points `(0, 0)`, `(1, 0)` and `(2, 0)`. -/
noncomputable def finds (a b c : Nat × Nat) (p : Pt ℝ) : Res (Nat × Nat) :=
  if p.x = 0 then .ok a else if p.x = 1 then .ok b else .ok c

theorem finds_seen (a b c : Nat × Nat) (g : Grid (Pt ℝ)) (ha : In g a) (hb : In g b) (hc : In g c) :
    Seen (finds a b c) g [⟨0, 0⟩, ⟨1, 0⟩, ⟨2, 0⟩] [a, b, c] ∧ Seen (finds a b c) g [⟨0, 0⟩, ⟨1, 0⟩] [a, b] := by
  have v : ∀ x : ℝ, 0 ≤ x → valid (⟨x, 0⟩ : Pt ℝ) = true := by
    intro x hx
    show (decide (x ≠ -999) && decide ((0 : ℝ) ≠ -999)) = true
    rw [decide_eq_true (by linarith), decide_eq_true (by norm_num)]
    rfl
  have e1 : finds a b c ⟨0, 0⟩ = .ok a := if_pos rfl
  have e2 : finds a b c ⟨1, 0⟩ = .ok b := by
    unfold finds
    rw [if_neg (by norm_num), if_pos rfl]
  have e3 : finds a b c ⟨2, 0⟩ = .ok c := by
    unfold finds
    rw [if_neg (by norm_num), if_neg (by norm_num)]
  exact ⟨.cons ⟨v _ le_rfl, e1, ha⟩ (.cons ⟨v _ zero_le_one, e2, hb⟩ (.cons ⟨v _ zero_le_two, e3, hc⟩ .nil)),
    .cons ⟨v _ le_rfl, e1, ha⟩ (.cons ⟨v _ zero_le_one, e2, hb⟩ .nil)⟩

example : Seen (finds (0, 0) (0, 2) (2, 1)) (square 0) [⟨0, 0⟩, ⟨1, 0⟩, ⟨2, 0⟩] [(0, 0), (0, 2), (2, 1)] :=
  (finds_seen _ _ _ _ ⟨by show 0 < 3; decide, by show 0 < 3; decide⟩ ⟨by show 0 < 3; decide, by show 2 < 3; decide⟩ ⟨by show 2 < 3; decide, by show 1 < 3; decide⟩).1
example : Seen (finds (0, 0) (2, 2) (2, 2)) (square 0) [⟨0, 0⟩, ⟨1, 0⟩, ⟨2, 0⟩] [(0, 0), (2, 2), (2, 2)] :=
  (finds_seen _ _ _ _ ⟨by show 0 < 3; decide, by show 0 < 3; decide⟩ ⟨by show 2 < 3; decide, by show 2 < 3; decide⟩ ⟨by show 2 < 3; decide, by show 2 < 3; decide⟩).1
example : Seen (finds (0, 0) (0, 2) (0, 0)) plainGrid [⟨0, 0⟩, ⟨1, 0⟩] [(0, 0), (0, 2)] ∧
    Seen (finds (0, 0) (0, 2) (0, 0)) hiddenGrid [⟨0, 0⟩, ⟨1, 0⟩] [(0, 0), (0, 2)] :=
  ⟨(finds_seen _ _ _ _ ⟨by show 0 < 3; decide, by show 0 < 5; decide⟩ ⟨by show 0 < 3; decide, by show 2 < 5; decide⟩ ⟨by show 0 < 3; decide, by show 0 < 5; decide⟩).2,
   (finds_seen _ _ _ _ ⟨by show 0 < 4 - 1 - 0; decide, by show 0 < 5; decide⟩ ⟨by show 0 < 4 - 1 - 0; decide, by show 2 < 5; decide⟩ ⟨by show 0 < 4 - 1 - 0; decide, by show 0 < 5; decide⟩).2⟩
example : (below (-1)).Good := below_good _

/-- Two stretches with a separator between them, and a point nearest to the inside of the second one. -/
example : nearestOn (10 ^ 67 : ℚ) [⟨0, 0⟩, ⟨4, 0⟩, ⟨-999, -999⟩, ⟨0, 10⟩, ⟨4, 10⟩] ⟨3, 8⟩ = ⟨3, 10⟩ := by decide +kernel

example : Readable [(⟨0, 0⟩ : Pt ℝ), ⟨4, 0⟩] ∧ OnLand [(⟨0, 0⟩ : Pt ℝ), ⟨4, 0⟩] ⟨2, 0⟩ := by
  have hv : ∀ x : ℝ, 0 ≤ x → valid (⟨x, 0⟩ : Pt ℝ) = true := by
    intro x hx
    show (decide (x ≠ -999) && decide ((0 : ℝ) ≠ -999)) = true
    rw [decide_eq_true (by linarith), decide_eq_true (by norm_num)]
    rfl
  constructor
  · intro r hr
    rcases (onLand_cons _ _ _ r).1 hr with ⟨-, -, -, t, h0, -, rfl⟩ | h
    · have := hv (0 + t * (4 - 0)) (by linarith)
      rw [show (0 : ℝ) + t * (0 - 0) = 0 by ring]
      exact this
    · exact absurd h (not_onLand_short (by simp) r)
  · refine (onLand_cons _ _ _ _).2 (Or.inl ⟨hv 0 le_rfl, hv 4 (by norm_num), ?_, 1 / 2, by norm_num, by norm_num, ?_⟩)
    · intro c
      have := congrArg Pt.x c
      norm_num at this
    · norm_num

end Verif.Snap
