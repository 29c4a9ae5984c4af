import Verif.InsertFace.Props
import Mathlib.Algebra.Order.Field.Rat
/-!
# Where inserting a face does not do what it should, and cases that meet the hypotheses
-/
namespace Verif.InsertFace
open Verif.Curvi Verif.CurviLine

/-- Rows at the heights 0, 1, …, columns at the given places, some nodes missing. -/
def holes (r c : Nat) (l : List (Nat × Nat)) (x : Nat → ℚ) : Grid (Pt ℚ) :=
  ⟨r, c, fun i j => if (i, j) ∈ l then inv else ⟨x j, i⟩, 0, 0, 0, 0⟩

/-- Columns further and further apart. -/
def wider (j : Nat) : ℚ := j * j

/-- A node after a call that succeeded. -/
def nodeAfter (r : Res (Outcome ℚ)) (n m : Nat) : Option (Pt ℚ) :=
  match r with
  | .ok ⟨g, some _⟩ => some (g.node n m)
  | _ => none

/-- A node after a call that reported an error. -/
def nodeAfterError (r : Res (Outcome ℚ)) (n m : Nat) : Option (Pt ℚ) :=
  match r with
  | .ok ⟨g, none⟩ => some (g.node n m)
  | _ => none

/-- What undo does to a grid. -/
def undone (r : Res (Outcome ℚ)) : Option (Grid (Pt ℚ)) :=
  match r with
  | .ok ⟨g, some u⟩ =>
    match u.restore g with
    | .ok (_, g') => some g'
    | _ => none
  | _ => none

/-- The call reads outside the node matrix. -/
def outside (r : Res (Outcome ℚ)) : Bool :=
  match r with
  | .ub => true
  | _ => false

/-- A check that no node is loose. -/
def noLooseCheck (g : Grid (Pt ℚ)) : Bool :=
  (List.range g.numN).all fun n => (List.range g.numM).all fun m =>
    !valid (g.node n m) || (List.range (g.numN - 1)).any fun i => (List.range (g.numM - 1)).any fun j =>
      faceValid g i j && (decide (n = i) || decide (n = i + 1)) && (decide (m = j) || decide (m = j + 1))

theorem noLoose_of_check {g : Grid (Pt ℚ)} (h : noLooseCheck g = true) : NoLoose g := by
  intro n m hn hm hv
  simp only [noLooseCheck, List.all_eq_true, List.mem_range, List.any_eq_true, Bool.or_eq_true, Bool.and_eq_true, decide_eq_true_eq,
    Bool.not_eq_true'] at h
  rcases h n hn m hm with c | ⟨i, hi, j, hj, ⟨c1, c2⟩, c3⟩
  · rw [hv] at c; cases c
  · exact ⟨i, j, by omega, by omega, c1, c2, c3⟩

/-! ## The hypotheses can be met -/

/-- Two rows of two faces, one face missing at the lower left, seen from an edge of the face above it. -/
example : CanInsert (holes 3 4 [(0, 0), (0, 1)] wider) .bottom (1, 0) (1, 1) (2, 0) (2, 1) (0, 0) (0, 1) where
  wf := ⟨by decide, by decide⟩
  noLoose := noLoose_of_check (by decide +kernel)
  rows := by decide
  cols := by decide
  face := ⟨rfl, ⟨by decide, by decide⟩, ⟨by decide, by decide⟩, rfl, rfl, ⟨by decide, by decide⟩, ⟨by decide, by decide⟩,
    by decide +kernel, by decide +kernel, by decide +kernel, by decide +kernel⟩
  besideA := rfl
  besideB := rfl
  inC := ⟨by decide, by decide⟩
  inD := ⟨by decide, by decide⟩
  missingC := by decide +kernel
  missingD := by decide +kernel
  validC := by decide +kernel
  validD := by decide +kernel

/-- One more face at the right, in the middle of the side. -/
example : CanExtend (holes 4 3 [] wider) .right 1 where
  wf := ⟨by decide, by decide⟩
  noLoose := noLoose_of_check (by decide +kernel)
  rows := by decide
  cols := by decide
  pos := by decide
  fresh := fun h => absurd h (by decide)
  safe := .inl rfl
  validA := by decide +kernel
  validB := by decide +kernel
  validC := by decide +kernel
  validD := by decide +kernel

/-- The middle node of two by two faces. -/
example : WF (holes 3 3 [] wider) ∧ NoLoose (holes 3 3 [] wider) ∧ Inner (holes 3 3 [] wider) (1, 1) :=
  ⟨⟨by decide, by decide⟩, noLoose_of_check (by decide +kernel), by decide, by decide, by decide, by decide, by
    have h : ∀ n, n ≤ 2 → ∀ m, m ≤ 2 → valid ((holes 3 3 [] wider).node n m) = true := by decide +kernel
    exact fun n m _ h1 _ h2 => h n h1 m h2⟩

/-- A missing corner. -/
example : WF (holes 3 3 [(2, 2)] wider) ∧ NoLoose (holes 3 3 [(2, 2)] wider) ∧ valid (at' (holes 3 3 [(2, 2)] wider) (2, 2)) = false :=
  ⟨⟨by decide, by decide⟩, noLoose_of_check (by decide +kernel), by decide +kernel⟩

/-! ## Negations -/

/-- C69 fails in a row of faces one face wide: the edge between two faces has both ends on the outline, the call succeeds
(`CurvilinearGrid.cpp:801-843`) and overwrites two nodes of the face on its left: (1, 0) and (1, 1) become (-1, 0) and (-1, 1),
beyond the first column. -/
theorem edge_between_faces_overwrites :
    NoLoose (holes 2 5 [] wider) ∧ (holes 2 5 [] wider).node 0 1 = ⟨1, 0⟩ ∧
      nodeAfter (insertFace (holes 2 5 [] wider) (0, 2) (1, 2)) 0 1 = some ⟨-1, 0⟩ ∧
      nodeAfter (insertFace (holes 2 5 [] wider) (0, 2) (1, 2)) 1 1 = some ⟨-1, 1⟩ :=
  ⟨noLoose_of_check (by decide +kernel), by decide +kernel, by decide +kernel, by decide +kernel⟩

/-- Rows further and further apart. -/
def tall : Grid (Pt ℚ) := ⟨3, 3, fun i j => if (i, j) = (2, 2) then inv else ⟨j, i * i⟩, 0, 0, 0, 0⟩

/-- C69 fails in a corner: of the two nodes beyond the edge one exists already; it is moved, from (1, 4) to (1, 2), and with it the
face on the other side (`CurvilinearGrid.cpp:886-887`). -/
theorem existing_node_moved :
    NoLoose tall ∧ tall.node 2 1 = ⟨1, 4⟩ ∧ nodeAfter (insertFace tall (1, 1) (1, 2)) 2 1 = some ⟨1, 2⟩ :=
  ⟨noLoose_of_check (by decide +kernel), by decide +kernel, by decide +kernel⟩

/-- C69 fails where two faces touch in one node: the edge has a face above it and none below, but the call is refused
(the node gets no type, `CurvilinearGrid.cpp:436, 801-805`). -/
theorem touching_faces_refused :
    NoLoose (holes 3 3 [(0, 2), (2, 0)] wider) ∧ faceValid (holes 3 3 [(0, 2), (2, 0)] wider) 1 1 = true ∧
      faceValid (holes 3 3 [(0, 2), (2, 0)] wider) 0 1 = false ∧
      nodeAfterError (insertFace (holes 3 3 [(0, 2), (2, 0)] wider) (1, 1) (1, 2)) 1 1 = some ⟨1, 1⟩ :=
  ⟨noLoose_of_check (by decide +kernel), by decide +kernel, by decide +kernel, by decide +kernel⟩

/-- C69 fails at an edge without faces: the image of a missing node is taken, which is at (1001, 1001). -/
theorem image_of_missing_node :
    NoLoose (holes 4 3 [(2, 2), (3, 2), (0, 0), (1, 0)] wider) ∧ (holes 4 3 [(2, 2), (3, 2), (0, 0), (1, 0)] wider).node 1 2 = ⟨4, 1⟩ ∧
      nodeAfter (insertFace (holes 4 3 [(2, 2), (3, 2), (0, 0), (1, 0)] wider) (1, 1) (2, 1)) 1 2 = some ⟨1001, 1001⟩ :=
  ⟨noLoose_of_check (by decide +kernel), by decide +kernel, by decide +kernel⟩

/-- C69, C19 fail for loose nodes: a call that reports an error removes them (`CurvilinearGrid.cpp:669`). -/
theorem loose_node_lost_by_error :
    (holes 4 4 [(0, 2)] wider).node 0 3 = ⟨9, 0⟩ ∧
      nodeAfterError (insertFace (holes 4 4 [(0, 2)] wider) (2, 1) (2, 2)) 0 3 = some inv :=
  ⟨by decide +kernel, by decide +kernel⟩

/-- C69, C19 fail for loose nodes: undo does not bring them back. -/
theorem loose_node_not_restored :
    (holes 3 4 [(0, 2)] wider).node 0 3 = ⟨9, 0⟩ ∧
      (undone (insertFace (holes 3 4 [(0, 2)] wider) (2, 0) (2, 1))).map (fun g => g.node 0 3) = some inv ∧
      (undone (insertFace (holes 3 4 [(0, 2)] wider) (2, 0) (2, 1))).map (fun g => g.node 0 0) = some ⟨0, 0⟩ :=
  ⟨by decide +kernel, by decide +kernel, by decide +kernel⟩

/-- C69 fails when a new node gets the coordinate that marks missing nodes: no face is inserted, yet the call succeeds and adds a
line of missing nodes. -/
theorem new_node_lost :
    (nodeAfter (insertFace (holes 2 2 [] (fun j => -499 - j * 250)) (0, 1) (1, 1)) 0 2).map valid = some false ∧
      (nodeAfter (insertFace (holes 2 2 [] (fun j => -499 - j * 250)) (0, 1) (1, 1)) 1 2).map valid = some false :=
  ⟨by decide +kernel, by decide +kernel⟩

/-- C69 fails after undo: a face inserted below and undone leaves a hidden row, and inserting one at the top reads outside the node
matrix (`CurvilinearGrid.cpp:833-838`). -/
theorem insert_after_undo_outside :
    (undone (insertFace (holes 3 3 [] wider) (0, 0) (0, 1))).map (fun g => (g.numN, g.numM, g.node 2 0)) = some (3, 3, ⟨0, 2⟩) ∧
      (undone (insertFace (holes 3 3 [] wider) (0, 0) (0, 1))).map (fun g => outside (insertFace g (2, 0) (2, 1))) = some true :=
  ⟨by decide +kernel, by decide +kernel⟩

end Verif.InsertFace
