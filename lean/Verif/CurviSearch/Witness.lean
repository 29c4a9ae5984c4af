import Verif.CurviSearch.Props
import Verif.CurviLine.MirrorModel
/-!
# C70: examples, and where searching in a curvilinear grid goes wrong
-/
namespace Verif.CurviSearch
open Verif.Curvi Verif.CurviLine

/-- Square of the distance. -/
def far (p q : Pt ℚ) : ℚ := (p.x - q.x) ^ 2 + (p.y - q.y) ^ 2

/-- A nearest one of the points. -/
def closest (p : Pt ℚ) : List (Pt ℚ × Nat) → Option (Pt ℚ × Nat)
  | [] => none
  | v :: t => match closest p t with
    | none => some v
    | some w => if far p v.1 ≤ far p w.1 then some v else some w

/-- The plane, with boxes given by two corners; no box is the default box. -/
def plane : Eye (Pt ℚ) (Option (Pt ℚ × Pt ℚ)) where
  contains b p := match b with
    | none => true
    | some c => decide (c.1.x ≤ p.x) && decide (p.x ≤ c.2.x) && decide (c.1.y ≤ p.y) && decide (p.y ≤ c.2.y)
  sameBox a b := decide (a = b)
  whole := none
  mid a b := scale (add a b) (1 / 2)
  centre a b c d := scale (add (add (add a b) c) d) (1 / 4)
  nearest t p := (closest p t).map Prod.snd

theorem closest_spec (p : Pt ℚ) : ∀ t : List (Pt ℚ × Nat), t ≠ [] →
    ∃ v ∈ t, closest p t = some v ∧ ∀ w ∈ t, far p v.1 ≤ far p w.1 := by
  intro t
  induction t with
  | nil => intro h; exact absurd rfl h
  | cons v t ih =>
    intro _
    cases t with
    | nil => exact ⟨v, by simp, by simp [closest], by simp⟩
    | cons u t =>
      obtain ⟨w, hw, h1, h2⟩ := ih (by simp)
      rw [closest, h1]
      by_cases hc : far p v.1 ≤ far p w.1
      · refine ⟨v, by simp, by simp [hc], ?_⟩
        intro x hx
        rcases List.mem_cons.1 hx with rfl | hx
        · exact le_refl _
        · exact le_trans hc (h2 x hx)
      · refine ⟨w, List.mem_cons_of_mem _ hw, by simp [hc], ?_⟩
        intro x hx
        rcases List.mem_cons.1 hx with rfl | hx
        · exact le_of_lt (not_le.1 hc)
        · exact h2 x hx

theorem plane_search : SearchOk plane far := by
  refine ⟨fun t p ht => ?_, fun p => rfl⟩
  obtain ⟨⟨q, i⟩, h1, h2, h3⟩ := closest_spec p t ht
  exact ⟨i, q, by simp [plane, h2], h1, h3⟩

theorem plane_everything : Everything plane := fun _ => rfl

/-- Three rows and three columns of squares of side 10. -/
def squares : Grid (Pt ℚ) := ⟨3, 3, fun i j => ⟨10 * (j : ℚ), 10 * (i : ℚ)⟩, 0, 0, 0, 0⟩

/-- The same without the node in the corner. -/
def cut : Grid (Pt ℚ) := { squares with cell := upd squares.cell 0 0 ⟨-999, -999⟩ }

/-- A new grid, before any search. -/
def start (g : Grid (Pt ℚ)) : Seen (Pt ℚ) (Option (Pt ℚ × Pt ℚ)) :=
  ⟨g, rowsOf (fun n m => (n, m)) g.numN g.numM, [], true, true, true, [], [], [], none⟩

theorem start_ok (g : Grid (Pt ℚ)) : fresh g none = .ok (start g) := fresh_ok g none

/-- The number a search answers, if it does. -/
def answer {α : Type} (r : Res (Nat × α)) : Option Nat :=
  match r with
  | .ok v => some v.1
  | _ => none

/-- The row and column found. -/
def place {α β : Type} (r : Res (α × β)) : Option α :=
  match r with
  | .ok v => some v.1
  | _ => none

/-- A node of the grid after some operations. -/
def nodeOf (r : Res (Seen (Pt ℚ) (Option (Pt ℚ × Pt ℚ)))) (n m : Nat) : Option (Pt ℚ) :=
  match r with
  | .ok s => some (s.grid.node n m)
  | _ => none

/-- Search, cut a node off, search again. -/
def story : List (Step (Pt ℚ) (Option (Pt ℚ × Pt ℚ))) :=
  [.query .nodes none, .query .edges (some (⟨0, 0⟩, ⟨5, 5⟩)), .write cut, .query .faces none, .query .nodes none]

theorem story_steady : Steady none story := by
  intro before after l b' e hq
  unfold story at e
  match before with
  | [] =>
    simp only [List.nil_append, List.cons.injEq] at e
    have := hq (.write cut) (by rw [← e.2]; simp)
    exact this.elim
  | [a] =>
    simp only [List.cons_append, List.nil_append, List.cons.injEq] at e
    have := hq (.write cut) (by rw [← e.2.2]; simp)
    exact this.elim
  | [a, b] => simp at e
  | [a, b, c] => simp at e; exact e.2.2.2.1.2.symm
  | [a, b, c, d] => simp at e; exact e.2.2.2.2.1.2.symm
  | a :: b :: c :: d :: f :: rest => simp at e

theorem story_runs : ∃ s, run plane (start squares) story = .ok s ∧ s.grid = cut := by
  have h : ∀ {r : Res (Seen (Pt ℚ) (Option (Pt ℚ × Pt ℚ)))}, (match r with | .ok _ => true | _ => false) = true →
      ∃ s, r = .ok s := by
    intro r h
    cases r with
    | ok s => exact ⟨s, rfl⟩
    | throw => cases h
    | ub => cases h
  obtain ⟨s, hs⟩ := h (r := run plane (start squares) story) (by decide +kernel)
  refine ⟨s, hs, ?_⟩
  simp only [story, run, step] at hs
  obtain ⟨s1, h1, hs⟩ := Res.bind_eq_ok.1 hs
  obtain ⟨s2, h2, hs⟩ := Res.bind_eq_ok.1 hs
  simp only [Res.ok_bind] at hs
  obtain ⟨s4, h4, hs⟩ := Res.bind_eq_ok.1 hs
  obtain ⟨s5, h5, hs⟩ := Res.bind_eq_ok.1 hs
  rw [← Res.ok.inj hs, (buildTree_grid h5).1, (buildTree_grid h4).1]
  rfl

/-- The hypotheses of the theorems are met by a history with searches in different boxes and a change. -/
theorem story_kept : ∃ s, Kept plane story s ∧ s.grid = cut := by
  obtain ⟨s, h1, h2⟩ := story_runs
  refine ⟨s, ⟨⟨squares, none, start squares, start_ok _, h1, ⟨rfl, rfl, trivial⟩⟩, story_steady, ?_, plane_everything⟩, h2⟩
  rw [h2]; exact ⟨by decide, by decide⟩

example : ∃ s, Kept plane story s ∧ s.grid.numN ≤ missing ∧ s.grid.numM ≤ missing ∧ HasNode s.grid ∧
    s.grid.numN * s.grid.numM < 2 ^ 32 ∧ ¬ Clear plane s.grid none .edges := by
  obtain ⟨s, h1, h2⟩ := story_kept
  refine ⟨s, h1, ?_⟩
  rw [h2]
  refine ⟨by decide, by decide, ⟨1, 1, by decide, by decide, by decide +kernel⟩, by decide, ?_⟩
  intro h
  have := (h 0 (0, 0) (1, 0) (.inl ⟨0, 0, by decide, by decide, rfl, rfl, rfl⟩)).1 ⟨by decide +kernel, rfl⟩
  exact absurd this.1 (by decide +kernel)

/-- All nodes of the grid of squares are valid, and so are the points half way. -/
theorem squares_clear (l : Loc) : Clear plane squares none l := by
  have hn : ∀ n < 3, ∀ m < 3, valid (squares.node n m) = true := by decide +kernel
  have hm : ∀ n < 3, ∀ m < 3, ∀ k < 3, ∀ j < 3, valid (plane.mid (squares.node n m) (squares.node k j)) = true := by
    decide +kernel
  have hc : ∀ n < 2, ∀ m < 2, valid (plane.centre (squares.node n m) (squares.node n (m + 1)) (squares.node (n + 1) (m + 1))
    (squares.node (n + 1) m)) = true := by decide +kernel
  cases l with
  | nodes => trivial
  | edges =>
    intro i u v huv
    obtain ⟨h1, h2, h3, h4⟩ := edgeNo_in huv
    exact ⟨fun _ => ⟨hn _ h1 _ h2, hn _ h3 _ h4⟩, fun _ _ => hm _ h1 _ h2 _ h3 _ h4⟩
  | faces =>
    intro n m h1 h2
    have h1' : n + 1 < 3 := h1
    have h2' : m + 1 < 3 := h2
    exact ⟨fun _ => ⟨hn _ (by omega) _ (by omega), hn _ (by omega) _ (by omega), hn _ (by omega) _ (by omega),
      hn _ (by omega) _ (by omega)⟩, fun _ _ _ _ => hc _ (by omega) _ (by omega)⟩

example : Kept plane [] (start squares) ∧ Clear plane (start squares).grid plane.whole .edges ∧
    place (edgeAt plane (start squares) ⟨14, 1⟩) = some ((0, 1), (0, 2)) ∧
    answer (find plane (start squares) ⟨14, 1⟩ .faces none) = some 1 ∧
    place (blockAt plane (start squares) ⟨19, 1⟩ ⟨2, 12⟩) = some ((0, 0), (1, 2)) ∧
    nodeOf (moveAt plane (start squares) ⟨9, 1⟩ ⟨8, 2⟩) 0 1 = some ⟨8, 2⟩ ∧
    nodeOf (deleteAt plane (start squares) ⟨9, 1⟩) 0 1 = some ⟨-999, -999⟩ :=
  ⟨⟨⟨squares, none, _, start_ok _, rfl, trivial⟩, fun before after l b' e _ => by simp at e, ⟨by decide, by decide⟩, plane_everything⟩,
    squares_clear .edges, by decide +kernel, by decide +kernel, by decide +kernel, by decide +kernel, by decide +kernel⟩

example : ∃ s : Seen (Pt ℚ) (Option (Pt ℚ × Pt ℚ)), WF s.grid ∧ plane.sameBox s.box (some (⟨0, 0⟩, ⟨5, 5⟩)) = false ∧ s.nodesDirty = false ∧
    Clear plane s.grid (some (⟨0, 0⟩, ⟨5, 5⟩)) .nodes :=
  ⟨⟨squares, [], [], false, false, false, [], [], [], none⟩, ⟨by decide, by decide⟩, by decide +kernel, rfl, trivial⟩

/-! ### Where the property fails -/

/-- Negation of C70: all locations share the memory of the last box.  Search nodes in one box, edges in another one, and then
nodes in that one: the answer is a node outside of the box. -/
theorem boxes_mixed_up :
    answer (do
      let s ← run plane (start squares) [.query .nodes (some (⟨-1, -1⟩, ⟨1, 1⟩)), .query .edges (some (⟨9, 9⟩, ⟨11, 21⟩))]
      find plane s ⟨10, 10⟩ .nodes (some (⟨9, 9⟩, ⟨11, 21⟩))) = some 0 ∧
    NodeIs squares 0 ⟨0, 0⟩ ∧ plane.contains (some (⟨9, 9⟩, ⟨11, 21⟩)) ⟨0, 0⟩ = false ∧
    NodeIs squares 4 ⟨10, 10⟩ ∧ plane.contains (some (⟨9, 9⟩, ⟨11, 21⟩)) ⟨10, 10⟩ = true :=
  ⟨by decide +kernel, ⟨0, 0, by decide, by decide, rfl, by decide +kernel, by decide +kernel⟩, by decide +kernel,
    ⟨1, 1, by decide, by decide, rfl, by decide +kernel, by decide +kernel⟩, by decide +kernel⟩

/-- Negation of C70: the same way a wrong node is moved.  After a search of nodes in a small box and one of edges (or of
faces) in the default box, moving the node at (20, 20) moves the one at (0, 0). -/
theorem move_after_search_in_box :
    (let r := (do
      let s ← run plane (start squares) [.query .nodes (some (⟨-1, -1⟩, ⟨1, 1⟩)), .query .edges none]
      moveAt plane s ⟨20, 20⟩ ⟨21, 21⟩)
     (nodeOf r 0 0, nodeOf r 2 2) = (some ⟨21, 21⟩, some ⟨20, 20⟩)) ∧
    squares.node 2 2 = ⟨20, 20⟩ := ⟨by decide +kernel, by decide +kernel⟩

/-- Negation of C70: the middle of an edge with a missing node is computed, too, half way to (-999, -999), and found: for a
point far to the left the nearest edge is one that does not exist. -/
theorem edge_to_nowhere :
    answer (find plane (start cut) ⟨-499, -499⟩ .edges none) = some 0 ∧ EdgeNo cut.numN cut.numM 0 (0, 0) (1, 0) ∧
    valid (cut.node 0 0) = false ∧ ¬ ∃ q, EdgeIs plane cut 0 q := by
  refine ⟨by decide +kernel, .inl ⟨0, 0, by decide, by decide, rfl, rfl, rfl⟩, by decide +kernel, ?_⟩
  rintro ⟨q, a, b, hno, ha, _, _⟩
  have : (ends cut.numN cut.numM)[0]? = some ((0, 0), (1, 0)) := by decide +kernel
  have h2 := (ends_get _ _ _ _ _).2 hno
  rw [this] at h2
  obtain ⟨rfl, rfl⟩ := Prod.mk.inj (Option.some.inj h2)
  exact absurd ha (by decide +kernel)

/-- The same for faces: the face with the missing corner is found. -/
theorem face_to_nowhere :
    answer (find plane (start cut) ⟨-499, -499⟩ .faces none) = some 0 ∧ valid (cut.node 0 0) = false :=
  ⟨by decide +kernel, by decide +kernel⟩

/-- Two rows and two columns. -/
def square : Grid (Pt ℚ) := ⟨2, 2, fun i j => ⟨10 * (j : ℚ), 10 * (i : ℚ)⟩, 0, 0, 0, 0⟩

/-- Mirror the right column of the square outside, then go on. -/
def mirrored {α : Type} (a b : Nat × Nat) (next : Seen (Pt ℚ) (Option (Pt ℚ × Pt ℚ)) → Res α) : Res α := do
  let r ← apiMirror square (1 : ℚ) a b
  next (written (start square) r.1)

/-- Negation of C70: mirroring a line outside adds a column but the table stays the one of the grid before.  Moving the new
node at (20, 0) then moves the one at (0, 10). -/
theorem move_after_mirror :
    (let r := mirrored (0, 1) (1, 1) (fun s => moveAt plane s ⟨20, 0⟩ ⟨21, 1⟩)
     (nodeOf r 0 2, nodeOf r 1 0) = (some ⟨20, 0⟩, some ⟨21, 1⟩)) ∧
    (let r := mirrored (0, 1) (1, 1) .ok
     (nodeOf r 0 2, nodeOf r 1 0) = (some ⟨20, 0⟩, some ⟨0, 10⟩)) := ⟨by decide +kernel, by decide +kernel⟩

/-- Negation of C70: after mirroring, moving or deleting a node with a number beyond the old table, or choosing a block or an
edge by a point there, reads outside of the table. -/
theorem search_after_mirror_reads_outside :
    (mirrored (0, 1) (1, 1) (fun s => moveAt plane s ⟨10, 10⟩ ⟨11, 11⟩) matches .ub) = true ∧
    (mirrored (0, 1) (1, 1) (fun s => deleteAt plane s ⟨10, 10⟩) matches .ub) = true ∧
    (mirrored (0, 1) (1, 1) (fun s => blockAt plane s ⟨0, 0⟩ ⟨20, 10⟩) matches .ub) = true ∧
    (mirrored (0, 1) (1, 1) (fun s => edgeAt plane s ⟨20, 5⟩) matches .ub) = true :=
  ⟨by decide +kernel, by decide +kernel, by decide +kernel, by decide +kernel⟩

end Verif.CurviSearch
