import Verif.Smooth.Props
import Verif.Smooth.DirectProps
import Mathlib.Algebra.Order.Field.Rat
/-!
# Where smoothing does not do what it should, and cases that meet the hypotheses
-/
namespace Verif.Smooth
open Verif.Curvi Verif.CurviLine

/-- Unit squares: n counts upwards, m to the right. -/
def squares (r c : Nat) : Grid (Pt ℚ) := ⟨r, c, fun i j => ⟨j, i⟩, 0, 0, 0, 0⟩

/-- Unit squares with one node elsewhere. -/
def bump (r c n m : Nat) (p : Pt ℚ) : Grid (Pt ℚ) := ⟨r, c, fun i j => if i = n ∧ j = m then p else ⟨j, i⟩, 0, 0, 0, 0⟩

/-- A node of the result. -/
def nodeAfter (r : Res (Outcome ℚ)) (n m : Nat) : Option (Pt ℚ) :=
  match r with
  | .ok ⟨some g, _⟩ => some (g.node n m)
  | _ => none

/-- The call succeeded but some position is not a number. -/
def noNumber (r : Res (Outcome ℚ)) : Bool :=
  match r with
  | .ok ⟨none, some _⟩ => true
  | _ => false

/-- A node after the call and undo. -/
def nodeAfterUndo (r : Res (Outcome ℚ)) (n m : Nat) : Option (Pt ℚ) :=
  match r with
  | .ok ⟨some g, some u⟩ =>
    match u.restore g with
    | .ok (_, g') => some (g'.node n m)
    | _ => none
  | _ => none

/-- The call is refused. -/
def refused (r : Res (Outcome ℚ)) : Bool :=
  match r with
  | .ok ⟨_, none⟩ => true
  | _ => false

/-- A node of the result of smoothing along a line. -/
def nodeAlong (r : Res (Directed ℚ)) (n m : Nat) : Option (Pt ℚ) :=
  match r with
  | .ok ⟨g, some _⟩ => some (g.node n m)
  | _ => none

/-- The number of rows of the result. -/
def rowsAlong (r : Res (Directed ℚ)) : Option Nat :=
  match r with
  | .ok ⟨g, some _⟩ => some g.numN
  | _ => none

/-- The right factors for a zone one line wide on either side. -/
def oneWide : Geo ℚ := ⟨fun _ _ => 0, fun d _ => if d = 0 then 1 else 0⟩

/-- Rectangles with rows at the given heights. -/
def heights (y : Nat → ℚ) (r c : Nat) : Grid (Pt ℚ) := ⟨r, c, fun i j => ⟨j, y i⟩, 0, 0, 0, 0⟩

/-! ## Cases that meet the hypotheses -/

theorem squares_valid (r c n m : Nat) : valid ((squares r c).node n m) = true := by
  have h1 : ((m : Nat) : ℚ) ≠ -999 := by have := Nat.cast_nonneg (α := ℚ) m; intro h; linarith
  have h2 : ((n : Nat) : ℚ) ≠ -999 := by have := Nat.cast_nonneg (α := ℚ) n; intro h; linarith
  show (decide _ && decide _) = true
  simp [Grid.node, squares, h1, h2]

theorem squares_wf : WF (squares 4 5) := ⟨by decide, by decide⟩

theorem squares_noLoose : NoLoose (squares 4 5) := noLoose_of_all_valid squares_wf fun _ _ _ _ => squares_valid ..

theorem squares_noHidden : NoHidden (squares 4 5) := ⟨rfl, rfl, rfl, rfl⟩

/-- A grid of squares meets the hypotheses of `smoothing_exact_partial`, `smoothing_undo_partial` and
`regular_unchanged_partial`. -/
example (k : Nat) (hk : k < 2147483648) : ∃ act, smoothing (squares 4 5) k (0, 0) (3, 4) = .ok ⟨some (squares 4 5), some act⟩ :=
  regular_unchanged_partial _ squares_wf squares_noHidden squares_noLoose (by decide) (by decide) k hk
    ⟨by decide, by decide, by decide⟩ (o := ⟨0, 0⟩) (u := ⟨0, 1⟩) (v := ⟨1, 0⟩)
    (fun n m _ _ => by simp [Grid.node, squares]) (Or.inr ⟨by norm_num, by decide, by decide⟩)

/-- An inner node is pulled half the way back. -/
example : nodeAfter (smoothing (bump 3 3 1 1 ⟨3 / 2, 1⟩) 1 (0, 0) (2, 2)) 1 1 = some ⟨5 / 4, 1⟩ := by decide +kernel

/-- A node of a straight edge is pulled back along the edge. -/
example : nodeAfter (smoothing (bump 3 3 0 1 ⟨3 / 2, 0⟩) 1 (0, 0) (2, 2)) 0 1 = some ⟨5 / 4, 0⟩ := by decide +kernel

/-- The block of `smoothing_convex_partial`: no node is on an edge. -/
example : ∀ n m, Within (1, 1) (2, 3) n m → ¬ EdgeN (squares 4 5) n m ∧ ¬ EdgeM (squares 4 5) n m := by
  rintro n m ⟨⟨h1, h2⟩, h3, h4⟩
  have hi : Inner (squares 4 5) n m := by
    have hn : (squares 4 5).numN = 4 := by decide
    have hm : (squares 4 5).numM = 5 := by decide
    refine ⟨by rw [hn]; simp only at *; omega, by rw [hm]; simp only at *; omega, ?_, ?_, ?_, ?_⟩ <;>
      simp [faceValid, squares_valid]
  exact ⟨hi.not_edgeN, hi.not_edgeM⟩

/-- A quarter turn is a similarity. -/
example : (⟨0, 1, 5, 5, 1⟩ : Similarity ℚ).Proper := ⟨Or.inl rfl, by norm_num⟩

/-- Smoothing along a line pulls the rows together: the nodes of the line at heights 0, 1, 3, 4. -/
example : nodeAlong (smoothingDirectional oneWide (heights (fun i => [0, 1, 3, 4].getD i 0) 4 3) 1 (0, 1) (3, 1) (0, 0) (3, 2)) 1 1 =
    some ⟨1, 11 / 8⟩ := by decide +kernel

/-- A grid of squares meets the hypotheses of `directional_exact_partial` and of `undo_does_nothing`. -/
example (geo : Geo ℚ) (k : Nat) (hk : k < 2147483648) : ∃ g' o, smoothingDirectional geo (squares 4 5) k (0, 2) (3, 2) (1, 1) (2, 4) = .ok o ∧
    o.grid = g' ∧ DSteps geo (squares 4 5) (lineOf (0, 2) (3, 2)) (low (1, 1) (2, 4)) (high (1, 1) (2, 4)) k (squares 4 5) g' :=
  directional_exact_partial geo _ squares_wf squares_noHidden squares_noLoose (by decide) (by decide) k hk
    ⟨by decide, by decide, by decide, by decide⟩ ⟨by decide, by decide, by decide⟩ (by decide)

/-- Its rows are evenly spaced, as in `even_unchanged_partial`. -/
example : ∀ n m, Free true (squares 4 5) n m →
    dist2 ((squares 4 5).node n m) (prevOf (squares 4 5).node true n m) = dist2 ((squares 4 5).node n m) (nextOf (squares 4 5).node true n m) ∧
      tiny ≤ dist2 ((squares 4 5).node n m) (nextOf (squares 4 5).node true n m) := by
  intro n m h
  have hn := h.around.2.1.1
  obtain ⟨k, rfl⟩ : ∃ k, n = k + 1 := ⟨n - 1, by omega⟩
  simp only [dist2, prevOf, nextOf, if_true, Grid.node, squares, tiny, Nat.add_zero, Nat.add_sub_cancel]
  push_cast
  constructor
  · ring
  · ring_nf; norm_num

/-- And they go upwards, as in `order_kept` and `strict_order_kept_partial`. -/
example : ∀ n m n' m', Next true (squares 4 5) n m n' m' → level 0 1 ((squares 4 5).node n m) < level 0 1 ((squares 4 5).node n' m') := by
  intro n m n' m' h
  obtain ⟨⟨rfl, rfl⟩, _⟩ := h
  simp [level, Grid.node, squares]

/-! ## Failures of smoothing -/

/-- Five rows of unit squares of which the first is hidden. -/
def firstHidden : Grid (Pt ℚ) := ⟨5, 4, fun i j => ⟨j, i⟩, 1, 0, 0, 0⟩

/-- C67 fails with hidden lines: the visible grid is a grid of unit squares, but its node (1, 1) moves by a whole row, to
where node (0, 1) is. -/
theorem hidden_line_misread : firstHidden.node 1 1 = ⟨1, 2⟩ ∧ firstHidden.node 0 1 = ⟨1, 1⟩ ∧
    nodeAfter (smoothing firstHidden 1 (0, 0) (3, 3)) 1 1 = some ⟨1, 1⟩ := by decide +kernel

/-- Unit squares and a single node above them. -/
def antenna : Grid (Pt ℚ) := ⟨4, 3, fun i j => if i = 3 ∧ j ≠ 1 then inv else ⟨j, i⟩, 0, 0, 0, 0⟩

/-- C67 fails for loose nodes: a call that is refused removes the loose node, and undoing a call that is accepted does not
bring it back. -/
theorem loose_node_lost : antenna.node 3 1 = ⟨1, 3⟩ ∧
    (refused (smoothing antenna 1 (0, 0) (0, 0)) = true ∧ nodeAfter (smoothing antenna 1 (0, 0) (0, 0)) 3 1 = some inv) ∧
    nodeAfterUndo (smoothing antenna 1 (0, 0) (1, 1)) 3 1 = some inv := by decide +kernel

/-- C67 fails for regular grids of parallelograms: their edges move. -/
theorem sheared_edge_moves : nodeAfter (smoothing ⟨3, 3, fun i j => ⟨j + i, i⟩, 0, 0, 0, 0⟩ 1 (0, 0) (2, 2)) 0 1 = some ⟨7 / 6, 0⟩ := by
  decide +kernel

/-- C67 fails where an edge bends inwards: the node between (0, 0) and (2, 0) at (1, 1/10) is moved off the edge. -/
theorem bent_edge_left : nodeAfter (smoothing (bump 3 3 0 1 ⟨1, 1 / 10⟩) 1 (0, 0) (2, 2)) 0 1 = some ⟨1, 613 / 6060⟩ ∧
    (613 / 6060 : ℚ) > 1 / 10 := by decide +kernel

/-- C67: a grid with a mirror axis can lose it: the tip of a symmetric grid slides to the side of smaller m. -/
theorem symmetry_lost : nodeAfter (smoothing (bump 3 3 0 1 ⟨1, -1⟩) 1 (0, 0) (2, 2)) 0 1 = some ⟨2 / 3, -2 / 3⟩ := by decide +kernel

/-- C67 fails where nodes of an edge coincide: the call succeeds, but the new position is not a number. -/
theorem coinciding_nodes_no_number :
    noNumber (smoothing ⟨3, 3, fun i j => if i = 0 then ⟨0, 0⟩ else ⟨j, i⟩, 0, 0, 0, 0⟩ 1 (0, 0) (2, 2)) = true := by decide +kernel

/-- C67 fails for a negative number of rounds: it is not refused, and more than two thousand million rounds follow. -/
theorem negative_rounds {K : Type} [Field K] [LinearOrder K] [IsStrictOrderedRing K] (g : Grid (Pt K)) (hg : WF g) (hh : NoHidden g)
    (hl : NoLoose g) (hN : g.numN ≤ missing) (hM : g.numM ≤ missing) (k : Int) (hk : -2147483648 ≤ k) (hk' : k < 0) {a b : Nat × Nat}
    (hb : BlockOk g a b) : ∃ r u, smoothing g k a b = .ok ⟨r, some u⟩ ∧
      ∃ j : Nat, 2147483648 ≤ j ∧ ∀ g', r = some g' ↔ Steps g (low a b) (high a b) j g g' := by
  obtain ⟨r, h1, h2⟩ := smoothing_ok g g hg hh (clean_of_no_loose g hg hl) hN hM k hb
  exact ⟨r, _, h1, unsigned k, by unfold unsigned; omega, h2⟩

/-! ## Failures of smoothing along a line -/

/-- C68 fails for evenly spaced nodes that are very near to each other: they move by half a step. -/
theorem near_nodes_move :
    nodeAlong (smoothingDirectional oneWide (heights (fun i => i / 100000) 4 3) 1 (0, 1) (3, 1) (0, 0) (3, 2)) 1 1 = some ⟨1, 3 / 200000⟩ := by
  decide +kernel

/-- C68 fails for nodes very near to each other: two nodes of the line become one. -/
theorem near_nodes_meet :
    let r := smoothingDirectional oneWide (heights (fun i => [0, 1, 3, 4].getD i 0 / 100000) 4 3) 1 (0, 1) (3, 1) (0, 0) (3, 2)
    nodeAlong r 1 1 = some ⟨1, 2 / 100000⟩ ∧ nodeAlong r 2 1 = some ⟨1, 2 / 100000⟩ := by decide +kernel

/-- Five rows, the first of which is hidden and far away. -/
def farHidden : Grid (Pt ℚ) := ⟨5, 3, fun i j => ⟨j, [-5, 0, 1, 2, 3].getD i 0⟩, 1, 0, 0, 0⟩

/-- C68 fails with hidden lines: the visible rows are evenly spaced, but a node moves; and the hidden row is back, so that
the grid has five rows instead of four. -/
theorem hidden_line_misread_along :
    let r := smoothingDirectional oneWide farHidden 1 (0, 1) (3, 1) (0, 0) (3, 2)
    farHidden.numN = 4 ∧ rowsAlong r = some 5 ∧ farHidden.node 1 1 = ⟨1, 1⟩ ∧ nodeAlong r 2 1 = some ⟨1, -36 / 25⟩ := by decide +kernel

/-- C68 fails for undo: a node that was moved stays where it was moved to. -/
theorem moved_node_not_restored :
    let g := heights (fun i => [0, 1, 3, 4].getD i 0) 4 3
    g.node 1 1 = ⟨1, 1⟩ ∧ (match smoothingDirectional oneWide g 1 (0, 1) (3, 1) (0, 0) (3, 2) with
      | .ok ⟨_, some h⟩ => some (h.node 1 1)
      | _ => none) = some ⟨1, 11 / 8⟩ := by decide +kernel

end Verif.Smooth
